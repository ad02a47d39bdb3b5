import Verif.Spec.Obstacle
import Verif.Lemmas.Assembly
import Verif.Lemmas.VectorAsm
import Mathlib.Tactic.Ring
import Mathlib.Tactic.Linarith
import Mathlib.Algebra.Order.BigOperators.Group.List
import Mathlib.Data.List.Forall2
/-!
The assemblers of the obstacle problem.
-/
namespace Verif.Lemmas.Obstacle
open Verif Verif.Obstacle Verif.Spec.Obstacle Verif.Assembly Verif.VectorAsm Finset

/-! ### Tables -/

theorem ctLoop_length (k : List Bool) (co : Nat) : (ctLoop k co).length = k.length := by
  induction k generalizing co with
  | nil => rfl
  | cons b bs ih => simp [ctLoop, ih]

theorem ctLoop_lt (k : List Bool) (co i : Nat) (h : k[i]? = some true) :
    co ≤ (ctLoop k co).getD i 0 ∧ (ctLoop k co).getD i 0 < co + k.count true := by
  induction k generalizing co i with
  | nil => simp at h
  | cons b bs ih =>
    cases i with
    | zero =>
      simp only [List.getElem?_cons_zero, Option.some.injEq] at h
      subst h
      simp [ctLoop]
    | succ i =>
      have := ih (if b then co + 1 else co) i (by simpa using h)
      rw [ctLoop, List.getD_cons_succ]
      cases b <;> simp at this ⊢ <;> omega

theorem etLoop_ct (k : List Bool) (co o i : Nat) (h : k[i]? = some true) :
    (etLoop k o)[(ctLoop k co).getD i 0 - co]? = some (o + i) := by
  induction k generalizing co o i with
  | nil => simp at h
  | cons b bs ih =>
    cases i with
    | zero =>
      simp only [List.getElem?_cons_zero, Option.some.injEq] at h
      subst h
      simp [ctLoop, etLoop]
    | succ i =>
      have h' : bs[i]? = some true := by simpa using h
      rw [ctLoop, List.getD_cons_succ]
      cases b with
      | false =>
        have := ih co (o + 1) i h'
        simp only [etLoop, Bool.false_eq_true, if_false]
        rw [this]; congr 1; omega
      | true =>
        have := ih (co + 1) (o + 1) i h'
        have hl := (ctLoop_lt bs (co + 1) i h').1
        simp only [etLoop, if_true]
        rw [show (ctLoop bs (co + 1)).getD i 0 - co = ((ctLoop bs (co + 1)).getD i 0 - (co + 1)) + 1 by omega,
          List.getElem?_cons_succ, this]
        congr 1; omega

section
variable {K : Type} [CommRing K]

omit [CommRing K] in
theorem scatter_low (sol : Nat → K) (k : List Bool) (i0 o : Nat) (v : Nat → K) (n : Nat) (h : n < i0) :
    scatter sol (etLoop k i0) o v n = v n := by
  induction k generalizing i0 o v with
  | nil => rfl
  | cons b bs ih =>
    cases b with
    | false => simp only [etLoop, Bool.false_eq_true, if_false]; exact ih (i0 + 1) o v (by omega)
    | true =>
      simp only [etLoop, if_true, scatter]
      rw [ih (i0 + 1) (o + 1) _ (by omega), if_neg (by omega)]

omit [CommRing K] in
theorem scatter_eq (sol : Nat → K) (k : List Bool) (i0 base co : Nat) (v : Nat → K) (i : Nat) :
    scatter sol (etLoop k i0) (base + co) v (i0 + i) =
      if k[i]? = some true then sol (base + (ctLoop k co).getD i 0) else v (i0 + i) := by
  induction k generalizing i0 co v i with
  | nil => simp [etLoop, scatter]
  | cons b bs ih =>
    cases i with
    | zero =>
      cases b with
      | false =>
        simp only [etLoop, Bool.false_eq_true, if_false]
        rw [scatter_low _ _ _ _ _ _ (by omega)]
        simp
      | true =>
        simp only [etLoop, if_true, scatter]
        rw [scatter_low _ _ _ _ _ _ (by omega)]
        simp [ctLoop]
    | succ i =>
      cases b with
      | false =>
        simp only [etLoop, Bool.false_eq_true, if_false, ctLoop, List.getD_cons_succ, List.getElem?_cons_succ]
        rw [show i0 + (i + 1) = (i0 + 1) + i by omega, ih]
      | true =>
        simp only [etLoop, if_true, scatter, ctLoop, List.getD_cons_succ, List.getElem?_cons_succ]
        rw [show i0 + (i + 1) = (i0 + 1) + i by omega, show base + co + 1 = base + (co + 1) by omega, ih,
          if_neg (show ¬ (i0 + 1 + i = i0) by omega)]

theorem ctLoop_all (n co : Nat) : ctLoop (List.replicate n true) co = List.range' co n := by
  induction n generalizing co with
  | zero => rfl
  | succ n ih => simp [List.replicate_succ, ctLoop, ih, List.range'_succ]

/-! ### Pairings -/

/-- `y · (t x)` for a list of triplets. -/
def tripSum (t : List (Nat × Nat × K)) (x y : Nat → K) : K := (t.map fun e => y e.1 * (e.2.2 * x e.2.1)).sum

/-- `y · d` for a list of pairs. -/
def pairSum (d : List (Nat × K)) (y : Nat → K) : K := (d.map fun e => y e.1 * e.2).sum

theorem tripSum_append (a b : List (Nat × Nat × K)) (x y : Nat → K) :
    tripSum (a ++ b) x y = tripSum a x y + tripSum b x y := by simp [tripSum]

theorem pairSum_append (a b : List (Nat × K)) (y : Nat → K) : pairSum (a ++ b) y = pairSum a y + pairSum b y := by
  simp [pairSum]

theorem sum_duo (d : List (Nat × K)) (N : Nat) (h : ∀ e ∈ d, e.1 < N) (y : Nat → K) :
    ∑ r ∈ range N, y r * duoSum d r = pairSum d y := by
  induction d with
  | nil => simp [duoSum, pairSum]
  | cons e d ih =>
    have ih := ih (fun z hz => h z (by simp [hz]))
    have : ∀ r, y r * duoSum (e :: d) r = (if r = e.1 then y e.1 * e.2 else 0) + y r * duoSum d r := by
      intro r
      simp only [duoSum, List.map_cons, List.sum_cons, mul_add]
      congr 1
      by_cases hr : r = e.1
      · subst hr; simp
      · rw [if_neg hr, if_neg (Ne.symm hr), mul_zero]
    simp only [this, sum_add_distrib, ih]
    rw [sum_ite_eq' (range N) e.1, if_pos (mem_range.2 (h e (by simp)))]
    simp [pairSum]

theorem sum_trip (t : List (Nat × Nat × K)) (N : Nat) (h : ∀ e ∈ t, e.1 < N ∧ e.2.1 < N) (x y : Nat → K) :
    ∑ r ∈ range N, y r * ∑ b ∈ range N, toMat t r b * x b = tripSum t x y := by
  have e : ∀ r, ∑ b ∈ range N, toMat t r b * x b = duoSum (t.map fun e => (e.1, e.2.2 * x e.2.1)) r := by
    intro r
    induction t with
    | nil => simp [toMat, duoSum]
    | cons z t ih =>
      have ih := ih (fun z hz => h z (by simp [hz]))
      have hz := h z (by simp)
      have : ∀ b, toMat (z :: t) r b * x b = (if b = z.2.1 then (if z.1 = r then z.2.2 * x z.2.1 else 0) else 0) +
          toMat t r b * x b := by
        intro b
        unfold toMat
        rw [List.filter_cons]
        by_cases h1 : z.1 = r <;> by_cases h2 : b = z.2.1
        · subst h2; simp [h1, add_mul]
        · simp [h1, h2, Ne.symm h2]
        · simp [h1]
        · simp [h1]
      simp only [this, sum_add_distrib, ih]
      rw [sum_ite_eq' (range N) z.2.1, if_pos (mem_range.2 hz.2)]
      simp [duoSum]
  simp only [e]
  rw [sum_duo _ N (by intro e he; obtain ⟨z, hz, rfl⟩ := List.mem_map.1 he; exact (h z hz).1)]
  unfold pairSum tripSum
  rw [List.map_map]; rfl

/-! ### One cell -/

/-- The test vector seen by rows. -/
def rowVals (y : Nat → K) (rows : List (Nat × Bool)) : List K := rows.map fun r => if r.2 then y r.1 else 0

/-- The unknowns seen by columns. -/
def colVals (x : Nat → K) (cols : List (Nat × Bool)) (data : List K) : List K :=
  (cols.zip data).map fun c => if c.1.2 then x c.1.1 else c.2

theorem zipIdx_flatMap_sum {α : Type} (l : List α) (g : α × Nat → List K) (k : Nat) :
    ((l.zipIdx k).flatMap g).sum = ((l.zipIdx k).map fun a => (g a).sum).sum := by
  induction l generalizing k with
  | nil => rfl
  | cons a l ih => simp [ih]

theorem flatMap_sum {α : Type} (l : List α) (g : α → List K) : (l.flatMap g).sum = (l.map fun a => (g a).sum).sum := by
  induction l with
  | nil => rfl
  | cons a l ih => simp [ih]

theorem zip_zipIdx_map {α β γ : Type} (a : List α) (b : List β) (h : a.length = b.length) (k : Nat) (g : α × Nat → γ) :
    (a.zipIdx k).map g = ((a.zip b).zipIdx k).map fun c => g (c.1.1, c.2) := by
  induction a generalizing b k with
  | nil => simp
  | cons x a ih =>
    cases b with
    | nil => simp at h
    | cons z b => simp only [List.zipIdx_cons, List.map_cons, List.zip_cons_cons]; rw [ih b (by simpa using h)]

omit [CommRing K] in
theorem zipIdx_map_sum_map {α β : Type} (l : List α) (f : α → β) (g : β × Nat → K) (k : Nat) :
    (((l.map f).zipIdx k).map g) = (l.zipIdx k).map fun a => g (f a.1, a.2) := by
  induction l generalizing k with
  | nil => rfl
  | cons a l ih => simp [ih]

theorem cell_form (rows cols : List (Nat × Bool)) (data : List K) (hl : cols.length = data.length)
    (lhs : Nat → Nat → K) (x y : Nat → K) :
    tripSum (trips rows cols lhs) x y - pairSum (duos rows cols data lhs) y =
      locForm lhs (colVals x cols data) (rowVals y rows) := by
  have h1 : tripSum (trips rows cols lhs) x y = (rows.zipIdx.map fun r => if r.1.2 then
      y r.1.1 * ((cols.zip data).zipIdx.map fun c => if c.1.1.2 then lhs r.2 c.2 * x c.1.1.1 else 0).sum else 0).sum := by
    unfold tripSum trips
    rw [List.map_flatMap, flatMap_sum]
    congr 1
    refine List.map_congr_left fun r _ => ?_
    split_ifs with hr
    · rw [List.map_flatMap, flatMap_sum, ← List.sum_map_mul_left, zip_zipIdx_map cols data hl 0]
      congr 1
      refine List.map_congr_left fun c _ => ?_
      split_ifs <;> simp
    · simp
  have h2 : pairSum (duos rows cols data lhs) y = (rows.zipIdx.map fun r => if r.1.2 then
      y r.1.1 * ((cols.zip data).zipIdx.map fun c => if c.1.1.2 then 0 else -(lhs r.2 c.2 * c.1.2)).sum else 0).sum := by
    unfold pairSum duos
    rw [List.map_flatMap, flatMap_sum]
    congr 1
    refine List.map_congr_left fun r _ => ?_
    split_ifs with hr
    · rw [List.map_flatMap, flatMap_sum, ← List.sum_map_mul_left]
      congr 1
      refine List.map_congr_left fun c _ => ?_
      split_ifs <;> simp
    · simp
  have h3 : ∀ (l : List ((Nat × Bool) × Nat)) (f g : (Nat × Bool) × Nat → K), (l.map f).sum - (l.map g).sum =
      (l.map fun a => f a - g a).sum := by
    intro l f g
    induction l with
    | nil => simp
    | cons a l ih => simp only [List.map_cons, List.sum_cons, ← ih]; ring
  have h4 : ∀ (l : List (((Nat × Bool) × K) × Nat)) (f g : ((Nat × Bool) × K) × Nat → K), (l.map f).sum - (l.map g).sum =
      (l.map fun a => f a - g a).sum := by
    intro l f g
    induction l with
    | nil => simp
    | cons a l ih => simp only [List.map_cons, List.sum_cons, ← ih]; ring
  rw [h1, h2, h3]
  unfold locForm rowVals colVals
  rw [zipIdx_map_sum_map]
  congr 1
  refine List.map_congr_left fun r _ => ?_
  split_ifs with hr
  · rw [← mul_sub, h4, zipIdx_map_sum_map, ← List.sum_map_mul_left]
    congr 1
    refine List.map_congr_left fun c _ => ?_
    split_ifs <;> ring
  · simp

theorem cell_load (mode : Mode) (r0 : Nat) (rows : List (Nat × Bool)) (rhs : Nat → K) (y : Nat → K) :
    pairSum (loads mode 1 ((r0, true) :: rows) rhs) y =
      ((rowVals y ((r0, true) :: rows)).zipIdx.map fun v => cellLoad mode rhs v.2 * v.1).sum := by
  unfold rowVals
  rw [zipIdx_map_sum_map]
  cases mode with
  | strong =>
    simp only [loads, pairSum, List.take_succ_cons, List.take_zero, List.zipIdx_cons, List.zipIdx_nil, List.map_cons,
      List.map_nil, List.sum_cons, List.sum_nil, add_zero, if_true, cellLoad]
    have : ((rows.zipIdx (0 + 1)).map fun a => (if True ∧ a.2 ≠ 0 then 0 else rhs a.2) *
        if a.1.2 = true then y a.1.1 else 0).sum = 0 := by
      refine List.sum_eq_zero fun z hz => ?_
      obtain ⟨a, ha, rfl⟩ := List.mem_map.1 hz
      have := List.le_snd_of_mem_zipIdx ha
      rw [if_pos ⟨True.intro, by omega⟩, zero_mul]
    rw [this]; simp [mul_comm]
  | nitsche =>
    simp only [loads, pairSum, cellLoad]
    rw [List.map_flatMap, flatMap_sum]
    congr 1
    refine List.map_congr_left fun a _ => ?_
    split_ifs <;> simp_all [mul_comm]

omit [CommRing K] in
theorem trips_range (rows cols : List (Nat × Bool)) (lhs : Nat → Nat → K) (N : Nat)
    (hr : ∀ r ∈ rows, r.2 = true → r.1 < N) (hc : ∀ c ∈ cols, c.2 = true → c.1 < N) :
    ∀ e ∈ trips rows cols lhs, e.1 < N ∧ e.2.1 < N := by
  intro e he
  obtain ⟨r, r1, r2⟩ := List.mem_flatMap.1 he
  split_ifs at r2 with h
  · obtain ⟨c, c1, c2⟩ := List.mem_flatMap.1 r2
    split_ifs at c2 with h'
    · obtain rfl := List.mem_singleton.1 c2
      exact ⟨hr _ (List.fst_mem_of_mem_zipIdx r1) h, hc _ (List.fst_mem_of_mem_zipIdx c1) h'⟩
    · simp at c2
  · simp at r2

theorem duos_range (rows cols : List (Nat × Bool)) (data : List K) (lhs : Nat → Nat → K) (N : Nat)
    (hr : ∀ r ∈ rows, r.2 = true → r.1 < N) : ∀ e ∈ duos rows cols data lhs, e.1 < N := by
  intro e he
  obtain ⟨r, r1, r2⟩ := List.mem_flatMap.1 he
  split_ifs at r2 with h
  · obtain ⟨c, c1, c2⟩ := List.mem_flatMap.1 r2
    split_ifs at c2 with h'
    · simp at c2
    · obtain rfl := List.mem_singleton.1 c2
      exact hr _ (List.fst_mem_of_mem_zipIdx r1) h
  · simp at r2

omit [CommRing K] in
theorem loads_range (mode : Mode) (r0 : Nat) (rows : List (Nat × Bool)) (rhs : Nat → K) (N : Nat)
    (hr : ∀ r ∈ (r0, true) :: rows, r.2 = true → r.1 < N) : ∀ e ∈ loads mode 1 ((r0, true) :: rows) rhs, e.1 < N := by
  intro e he
  cases mode with
  | strong =>
    simp only [loads, List.take_succ_cons, List.take_zero, List.zipIdx_cons, List.zipIdx_nil, List.map_cons, List.map_nil,
      List.mem_singleton] at he
    subst he
    exact hr (r0, true) (by simp) rfl
  | nitsche =>
    obtain ⟨r, r1, r2⟩ := List.mem_flatMap.1 he
    split_ifs at r2 with h
    · obtain rfl := List.mem_singleton.1 r2
      exact hr _ (List.fst_mem_of_mem_zipIdx r1) h
    · simp at r2

omit [CommRing K] in
theorem colVals_append (x : Nat → K) (a b : List (Nat × Bool)) (c d : List K) (h : a.length = c.length) :
    colVals x (a ++ b) (c ++ d) = colVals x a c ++ colVals x b d := by
  unfold colVals
  rw [List.zip_append h, List.map_append]

/-! ### The tables of a mesh -/

/-- The face is eliminated. -/
def isDir (mode : Mode) (m : Mesh) (f : Nat) : Bool := (dirs mode m).getD f false

/-- Number of a face. -/
def fnum (mode : Mode) (m : Mesh) (f : Nat) : Nat := (ctLoop ((dirs mode m).map (!·)) 0).getD f 0

/-- The tables. -/
def tabs (mode : Mode) (m : Mesh) (inA : List Bool) : Tabs :=
  ⟨inA, ctLoop (inA.map (!·)) 0, ctLoop inA 0, ctLoop ((dirs mode m).map (!·)) 0, etLoop (inA.map (!·)) 0, etLoop inA 0,
    inA.count false, inA.count true, (dirs mode m).count false⟩

theorem construct_eq (mode : Mode) (m : Mesh) (inA : List Bool) (h : inA.length = m.cells.length) :
    construct mode m inA = .ok (tabs mode m inA) := by
  unfold Obstacle.construct tabs
  rw [if_pos h]
  cases mode with
  | strong => rfl
  | nitsche =>
    have : ctLoop ((dirs .nitsche m).map (!·)) 0 = List.range m.bnd.length := by
      have : (dirs .nitsche m).map (!·) = List.replicate m.bnd.length true := by
        simp [dirs]
      rw [this, ctLoop_all, List.range_eq_range']
    rw [this]

theorem dirs_length (mode : Mode) (m : Mesh) : (dirs mode m).length = m.bnd.length := by
  cases mode <;> simp [dirs]

theorem isDir_iff (mode : Mode) (m : Mesh) (f : Nat) : isDir mode m f = true ↔ Fixed mode m f := by
  unfold isDir Fixed
  cases mode with
  | strong =>
    rw [List.getD_eq_getElem?_getD]
    cases h : m.bnd[f]? <;> simp [dirs, h]
  | nitsche =>
    rw [List.getD_eq_getElem?_getD]
    by_cases h : f < m.bnd.length <;> simp [dirs, h]

theorem count_map_not (l : List Bool) : (l.map (!·)).count true = l.count false := by
  induction l with
  | nil => rfl
  | cons b l ih => cases b <;> simp [ih]

theorem fnum_lt (mode : Mode) (m : Mesh) (f : Nat) (hf : f < m.bnd.length) (hd : isDir mode m f = false) :
    fnum mode m f < (dirs mode m).count false := by
  have hl : f < (dirs mode m).length := by rw [dirs_length]; exact hf
  have := (ctLoop_lt ((dirs mode m).map (!·)) 0 f (by
    rw [isDir, List.getD_eq_getElem?_getD] at hd
    simp [List.getElem?_eq_getElem hl] at hd ⊢
    exact hd)).2
  rw [count_map_not, zero_add] at this
  exact this

theorem count_add (l : List Bool) : l.count false + l.count true = l.length := by
  induction l with
  | nil => rfl
  | cons b l ih => cases b <;> simp <;> omega

theorem count_filter (l : List Bool) :
    l.count false = ((List.range l.length).filter fun f => decide (l[f]? ≠ some true)).length := by
  induction l with
  | nil => rfl
  | cons b l ih =>
    have e : ((List.range l.length).map Nat.succ).filter (fun f => decide ((b :: l)[f]? ≠ some true)) =
        ((List.range l.length).filter fun f => decide (l[f]? ≠ some true)).map Nat.succ := by
      rw [List.filter_map]
      rfl
    rw [List.length_cons, List.range_succ_eq_map, List.filter_cons, e]
    cases b <;> simp [ih]

theorem free_count (mode : Mode) (m : Mesh) : (dirs mode m).count false =
    ((List.range m.bnd.length).filter fun f => decide (¬ (mode = .strong ∧ m.bnd[f]? = some true))).length := by
  rw [count_filter, dirs_length]
  congr 1
  refine List.filter_congr fun f _ => ?_
  cases mode with
  | strong => exact decide_eq_decide.2 (by simp [dirs])
  | nitsche =>
    simp only [dirs, List.getElem?_map, reduceCtorEq, false_and, not_false_eq_true, decide_true, decide_eq_true_eq]
    cases m.bnd[f]? <;> simp

theorem faceLoop_eq (mode : Mode) (m : Mesh) (inA : List Bool) (cbs fbs : Nat) (proj : Nat → Nat → K) (fcs : List Nat)
    (h : ∀ f ∈ fcs, f < m.bnd.length) :
    faceLoop mode m (tabs mode m inA) cbs fbs proj fcs = .ok
      (fcs.flatMap fun f => (List.range fbs).map fun i => (cbs * m.cells.length + fnum mode m f * fbs + i, !isDir mode m f),
       fcs.flatMap fun f => (List.range fbs).map fun i => (cbs * inA.count false + fnum mode m f * fbs + i, !isDir mode m f),
       fcs.flatMap fun f => (List.range fbs).map fun i => if isDir mode m f then proj f i else 0) := by
  induction fcs with
  | nil => rfl
  | cons f fs ih =>
    have hf := h f (by simp)
    have h1 : vat (tabs mode m inA).fCt f = .ok (fnum mode m f) := by
      have : f < (ctLoop ((dirs mode m).map (!·)) 0).length := by
        rw [ctLoop_length, List.length_map, dirs_length]; exact hf
      simp only [vat, tabs, fnum, List.getD_eq_getElem?_getD, List.getElem?_eq_getElem this, Option.getD_some]
    have h2 : vat (dirs mode m) f = .ok (isDir mode m f) := by
      have : f < (dirs mode m).length := by rw [dirs_length]; exact hf
      simp only [vat, isDir, List.getD_eq_getElem?_getD, List.getElem?_eq_getElem this, Option.getD_some]
    rw [faceLoop, h1, h2, ih fun g hg => h g (by simp [hg])]
    rfl

/-! ### Expansion of a vector -/

/-- Test function of a vector of weights of the rows. -/
def testOf (mode : Mode) (m : Mesh) (fbs : Nat) (y : Nat → K) : Dofs K :=
  ⟨y, fun f i => if isDir mode m f then 0 else y (m.cells.length + fnum mode m f * fbs + i)⟩

/-- Unknowns of a vector. -/
def solOf (mode : Mode) (m : Mesh) (inA : List Bool) (fbs : Nat) (gamma : Nat → K) (proj : Nat → Nat → K) (x : Nat → K) :
    Dofs K :=
  ⟨fun T => if inA[T]? = some false then x ((ctLoop (inA.map (!·)) 0).getD T 0) else gamma T,
    fun f i => if isDir mode m f then proj f i else x (inA.count false + fnum mode m f * fbs + i)⟩

/-- Contact forces of a vector. -/
def forceOf (mode : Mode) (m : Mesh) (inA : List Bool) (fbs : Nat) (x : Nat → K) (T : Nat) : K :=
  if inA[T]? = some true then x (inA.count false + (dirs mode m).count false * fbs + (ctLoop inA 0).getD T 0) else 0

theorem expand_eq (mode : Mode) (m : Mesh) (inA : List Bool) (fbs : Nat) (gamma : Nat → K) (proj : Nat → Nat → K)
    (x : Nat → K) :
    expand mode m (tabs mode m inA) 1 fbs gamma proj x = .ok (solOf mode m inA fbs gamma proj x, forceOf mode m inA fbs x) := by
  unfold Obstacle.expand
  rw [if_pos (Nat.mul_one _)]
  congr 2
  · unfold solOf tabs
    congr 1
    · funext T
      have := scatter_eq x (inA.map (!·)) 0 0 0 gamma T
      simp only [zero_add] at this
      rw [this]
      cases h : inA[T]? with
      | none => simp [h]
      | some b => cases b <;> simp [h]
    · funext f i
      simp only [one_mul]; rfl
  · funext T
    have := scatter_eq x inA 0 (inA.count false + (dirs mode m).count false * fbs) 0 (fun _ => 0) T
    simp only [zero_add, add_zero] at this
    simp only [tabs, mul_one]
    rw [this]; rfl

/-! ### Assembly -/

theorem rowVals_locals (mode : Mode) (m : Mesh) (fbs : Nat) (y : Nat → K) (T : Nat) (fcs : List Nat) :
    rowVals y ((T, true) :: fcs.flatMap fun f => (List.range fbs).map fun i =>
      (1 * m.cells.length + fnum mode m f * fbs + i, !isDir mode m f)) = locals fbs (testOf mode m fbs y) T fcs := by
  unfold rowVals locals
  rw [List.map_cons, List.map_flatMap]
  congr 1
  refine List.flatMap_congr fun f _ => ?_
  rw [List.map_map]
  refine List.map_congr_left fun i _ => ?_
  simp only [testOf, Function.comp, one_mul]
  cases isDir mode m f <;> simp

theorem colVals_faces (mode : Mode) (m : Mesh) (inA : List Bool) (fbs : Nat) (gamma : Nat → K) (proj : Nat → Nat → K)
    (x : Nat → K) (fcs : List Nat) :
    colVals x (fcs.flatMap fun f => (List.range fbs).map fun i =>
        (1 * inA.count false + fnum mode m f * fbs + i, !isDir mode m f))
      (fcs.flatMap fun f => (List.range fbs).map fun i => if isDir mode m f then proj f i else 0) =
    fcs.flatMap fun f => (List.range fbs).map ((solOf mode m inA fbs gamma proj x).face f) := by
  induction fcs with
  | nil => rfl
  | cons f fs ih =>
    simp only [List.flatMap_cons]
    rw [colVals_append _ _ _ _ _ (by simp), ih]
    congr 1
    unfold colVals
    rw [List.zip_map', List.map_map]
    refine List.map_congr_left fun i _ => ?_
    simp only [solOf, Function.comp, one_mul]
    cases isDir mode m f <;> simp

theorem assemble_spec (mode : Mode) (m : Mesh) (inA : List Bool) (hA : inA.length = m.cells.length) (fbs : Nat)
    (gamma : Nat → K) (proj : Nat → Nat → K) (T : Nat) (hT : T < m.cells.length) (fcs : List Nat)
    (hf : ∀ f ∈ fcs, f < m.bnd.length) (l : Loc K) :
    ∃ r, assemble mode m (tabs mode m inA) 1 fbs gamma proj T fcs l = .ok r ∧
      (∀ e ∈ r.1, e.1 < m.cells.length + fbs * (dirs mode m).count false ∧
        e.2.1 < m.cells.length + fbs * (dirs mode m).count false) ∧
      (∀ e ∈ r.2, e.1 < m.cells.length + fbs * (dirs mode m).count false) ∧
      ∀ x y, tripSum r.1 x y - pairSum r.2 y =
        locForm l.lhs (locals fbs (solOf mode m inA fbs gamma proj x) T fcs) (locals fbs (testOf mode m fbs y) T fcs) +
        forceOf mode m inA fbs x T * (testOf mode m fbs y).cell T -
        ((locals fbs (testOf mode m fbs y) T fcs).zipIdx.map fun v => cellLoad mode l.rhs v.2 * v.1).sum := by
  have hTA : T < inA.length := by omega
  have h1 : vat (tabs mode m inA).aCt T = .ok ((ctLoop (inA.map (!·)) 0).getD T 0) := by
    have : T < (ctLoop (inA.map (!·)) 0).length := by rw [ctLoop_length, List.length_map]; exact hTA
    simp only [vat, tabs, List.getD_eq_getElem?_getD, List.getElem?_eq_getElem this, Option.getD_some]
  have h2 : vat (tabs mode m inA).inA T = .ok inA[T] := by
    simp only [vat, tabs, List.getElem?_eq_getElem hTA]
  have h3 : vat (tabs mode m inA).bCt T = .ok ((ctLoop inA 0).getD T 0) := by
    have : T < (ctLoop inA 0).length := by rw [ctLoop_length]; exact hTA
    simp only [vat, tabs, List.getD_eq_getElem?_getD, List.getElem?_eq_getElem this, Option.getD_some]
  have hc := count_add inA
  have hblk : ∀ f ∈ fcs, isDir mode m f = false → ∀ i < fbs,
      fnum mode m f * fbs + i < fbs * (dirs mode m).count false := by
    intro f hfm hd i hi
    have := fnum_lt mode m f (hf f hfm) hd
    calc fnum mode m f * fbs + i < (fnum mode m f + 1) * fbs := by rw [Nat.add_mul]; omega
      _ ≤ (dirs mode m).count false * fbs := Nat.mul_le_mul_right _ this
      _ = _ := Nat.mul_comm _ _
  set N := m.cells.length + fbs * (dirs mode m).count false with hN
  have hrows : ∀ r ∈ (T, true) :: fcs.flatMap (fun f => (List.range fbs).map fun i =>
      (1 * m.cells.length + fnum mode m f * fbs + i, !isDir mode m f)), r.2 = true → r.1 < N := by
    intro r hr h
    rcases List.mem_cons.1 hr with rfl | hr
    · dsimp only; omega
    · obtain ⟨f, f1, f2⟩ := List.mem_flatMap.1 hr
      obtain ⟨i, i1, rfl⟩ := List.mem_map.1 f2
      have := hblk f f1 (by simpa using h) i (List.mem_range.1 i1)
      dsimp only; omega
  have hcols : ∀ c ∈ ((ctLoop (inA.map (!·)) 0).getD T 0, !inA[T]) :: fcs.flatMap (fun f => (List.range fbs).map fun i =>
      (1 * inA.count false + fnum mode m f * fbs + i, !isDir mode m f)), c.2 = true → c.1 < N := by
    intro r hr h
    rcases List.mem_cons.1 hr with rfl | hr
    · have := (ctLoop_lt (inA.map (!·)) 0 T (by simpa [List.getElem?_eq_getElem hTA] using h)).2
      rw [count_map_not] at this
      dsimp only; omega
    · obtain ⟨f, f1, f2⟩ := List.mem_flatMap.1 hr
      obtain ⟨i, i1, rfl⟩ := List.mem_map.1 f2
      have := hblk f f1 (by simpa using h) i (List.mem_range.1 i1)
      dsimp only; omega
  have hlen : (((ctLoop (inA.map (!·)) 0).getD T 0, !inA[T]) :: fcs.flatMap (fun f => (List.range fbs).map fun i =>
      (1 * inA.count false + fnum mode m f * fbs + i, !isDir mode m f))).length =
      (gamma T :: fcs.flatMap (fun f => (List.range fbs).map fun i => if isDir mode m f then proj f i else 0)).length := by
    simp [List.length_flatMap]
  have hcv : ∀ x, colVals x (((ctLoop (inA.map (!·)) 0).getD T 0, !inA[T]) :: fcs.flatMap (fun f => (List.range fbs).map fun i =>
      (1 * inA.count false + fnum mode m f * fbs + i, !isDir mode m f)))
      (gamma T :: fcs.flatMap (fun f => (List.range fbs).map fun i => if isDir mode m f then proj f i else 0)) =
      locals fbs (solOf mode m inA fbs gamma proj x) T fcs := by
    intro x
    rw [locals, ← colVals_faces]
    unfold colVals
    rw [List.zip_cons_cons, List.map_cons]
    congr 1
    simp only [solOf, List.getElem?_eq_getElem hTA, Option.some.injEq]
    cases inA[T] <;> simp
  refine ⟨(trips (((T, true)) :: fcs.flatMap fun f => (List.range fbs).map fun i =>
      (1 * m.cells.length + fnum mode m f * fbs + i, !isDir mode m f))
      (((ctLoop (inA.map (!·)) 0).getD T 0, !inA[T]) :: fcs.flatMap fun f => (List.range fbs).map fun i =>
        (1 * inA.count false + fnum mode m f * fbs + i, !isDir mode m f)) l.lhs ++
      (if inA[T] then [(T, inA.count false + (dirs mode m).count false * fbs + (ctLoop inA 0).getD T 0, 1)] else []),
      duos (((T, true)) :: fcs.flatMap fun f => (List.range fbs).map fun i =>
      (1 * m.cells.length + fnum mode m f * fbs + i, !isDir mode m f))
      (((ctLoop (inA.map (!·)) 0).getD T 0, !inA[T]) :: fcs.flatMap fun f => (List.range fbs).map fun i =>
        (1 * inA.count false + fnum mode m f * fbs + i, !isDir mode m f))
      (gamma T :: fcs.flatMap fun f => (List.range fbs).map fun i => if isDir mode m f then proj f i else 0) l.lhs ++
      loads mode 1 (((T, true)) :: fcs.flatMap fun f => (List.range fbs).map fun i =>
      (1 * m.cells.length + fnum mode m f * fbs + i, !isDir mode m f)) l.rhs), ?_, ?_, ?_, ?_⟩
  · unfold Obstacle.assemble
    rw [h1, h2, h3, faceLoop_eq mode m inA 1 fbs proj fcs hf]
    simp only [Outcome.bind_ok, List.range_one, List.map_cons, List.map_nil, mul_one, Nat.add_zero, List.cons_append,
      List.nil_append]
    rfl
  · intro e he
    rcases List.mem_append.1 he with h | h
    · exact trips_range _ _ _ N hrows hcols e h
    · split_ifs at h with hb
      · obtain rfl := List.mem_singleton.1 h
        have := (ctLoop_lt inA 0 T (by rw [List.getElem?_eq_getElem hTA, hb])).2
        have e2 : (dirs mode m).count false * fbs = fbs * (dirs mode m).count false := Nat.mul_comm _ _
        constructor <;> dsimp only <;> omega
      · simp at h
  · intro e he
    rcases List.mem_append.1 he with h | h
    · exact duos_range _ _ _ _ N hrows e h
    · exact loads_range mode T _ _ N hrows e h
  · intro x y
    dsimp only
    rw [tripSum_append, pairSum_append, cell_load, rowVals_locals, ← hcv x, ← rowVals_locals, ← cell_form _ _ _ hlen]
    have : tripSum (if inA[T] then [(T, inA.count false + (dirs mode m).count false * fbs + (ctLoop inA 0).getD T 0, 1)]
        else []) x y = forceOf mode m inA fbs x T * (testOf mode m fbs y).cell T := by
      simp only [forceOf, List.getElem?_eq_getElem hTA, Option.some.injEq, testOf, tripSum]
      cases inA[T] <;> simp [mul_comm]
    rw [this]
    ring

theorem assembleAll_spec (mode : Mode) (m : Mesh) (inA : List Bool) (hA : inA.length = m.cells.length) (fbs : Nat)
    (gamma : Nat → K) (proj : Nat → Nat → K) (loc : Nat → Loc K) (cs : List (List Nat)) (T : Nat)
    (hT : T + cs.length ≤ m.cells.length) (hf : ∀ c ∈ cs, ∀ f ∈ c, f < m.bnd.length) :
    ∃ r, assembleAll mode m (tabs mode m inA) 1 fbs gamma proj loc cs T = .ok r ∧
      (∀ e ∈ r.1, e.1 < m.cells.length + fbs * (dirs mode m).count false ∧
        e.2.1 < m.cells.length + fbs * (dirs mode m).count false) ∧
      (∀ e ∈ r.2, e.1 < m.cells.length + fbs * (dirs mode m).count false) ∧
      ∀ x y, tripSum r.1 x y - pairSum r.2 y =
        ((cs.zipIdx T).map fun c => locForm (loc c.2).lhs (locals fbs (solOf mode m inA fbs gamma proj x) c.2 c.1)
          (locals fbs (testOf mode m fbs y) c.2 c.1)).sum +
        ((List.range' T cs.length).map fun T => forceOf mode m inA fbs x T * (testOf mode m fbs y).cell T).sum -
        ((cs.zipIdx T).map fun c => ((locals fbs (testOf mode m fbs y) c.2 c.1).zipIdx.map fun v =>
          cellLoad mode (loc c.2).rhs v.2 * v.1).sum).sum := by
  induction cs generalizing T with
  | nil => exact ⟨([], []), rfl, by simp, by simp, by intro x y; simp [tripSum, pairSum]⟩
  | cons c cs ih =>
    simp only [List.length_cons] at hT
    obtain ⟨a, a1, a2, a3, a4⟩ := assemble_spec mode m inA hA fbs gamma proj T (by omega) c (hf c (by simp)) (loc T)
    obtain ⟨r, r1, r2, r3, r4⟩ := ih (T + 1) (by omega) (fun z hz => hf z (by simp [hz]))
    refine ⟨(a.1 ++ r.1, a.2 ++ r.2), ?_, ?_, ?_, ?_⟩
    · rw [Obstacle.assembleAll, a1, Outcome.bind_ok, r1]; rfl
    · intro e he
      rcases List.mem_append.1 he with h | h
      exacts [a2 e h, r2 e h]
    · intro e he
      rcases List.mem_append.1 he with h | h
      exacts [a3 e h, r3 e h]
    · intro x y
      dsimp only
      rw [tripSum_append, pairSum_append]
      have e1 := a4 x y
      have e2 := r4 x y
      simp only [List.zipIdx_cons, List.map_cons, List.sum_cons, List.length_cons, List.range'_succ]
      rw [show tripSum a.1 x y + tripSum r.1 x y - (pairSum a.2 y + pairSum r.2 y) =
        (tripSum a.1 x y - pairSum a.2 y) + (tripSum r.1 x y - pairSum r.2 y) by ring, e1, e2]
      ring

theorem system_spec (mode : Mode) (m : Mesh) (hm : FacesOk m) (inA : List Bool) (hA : inA.length = m.cells.length)
    (fbs : Nat) (gamma : Nat → K) (proj : Nat → Nat → K) (loc : Nat → Loc K) :
    ∃ S, system mode m (tabs mode m inA) 1 fbs gamma proj loc = .ok S ∧
      S.size = m.cells.length + fbs * (dirs mode m).count false ∧
      ∀ x y, ∑ r ∈ range S.size, y r * (∑ b ∈ range S.size, S.lhs r b * x b - S.rhs r) =
        form m fbs loc (solOf mode m inA fbs gamma proj x) (testOf mode m fbs y) +
        cellPair m (forceOf mode m inA fbs x) (testOf mode m fbs y) - load mode m fbs loc (testOf mode m fbs y) := by
  obtain ⟨r, r1, r2, r3, r4⟩ := assembleAll_spec mode m inA hA fbs gamma proj loc m.cells 0 (by omega) hm
  have hN : 1 * ((tabs mode m inA).nI + (tabs mode m inA).nA) + fbs * (tabs mode m inA).nF =
      m.cells.length + fbs * (dirs mode m).count false := by
    have := count_add inA
    simp only [tabs, one_mul]; omega
  obtain ⟨b, b1, b2⟩ := finish_spec (m.cells.length + fbs * (dirs mode m).count false) r.1 r.2 (fun _ => 0) r2 r3
  refine ⟨⟨m.cells.length + fbs * (dirs mode m).count false, toMat r.1, b⟩, ?_, rfl, ?_⟩
  · unfold system
    dsimp only
    rw [hN, r1, Outcome.bind_ok, b1]; rfl
  · intro x y
    dsimp only
    simp only [mul_sub, sum_sub_distrib]
    rw [sum_trip _ _ r2]
    simp only [b2, zero_add]
    rw [sum_duo _ _ r3, r4, form, load, cellPair, List.range_eq_range']

/-! ### Equivalence with the discrete problem -/

omit [CommRing K] in
theorem locals_congr (m : Mesh) (fbs : Nat) (u v : Dofs K) (h : SameDofs m fbs u v) (T : Nat) (hT : T < m.cells.length)
    (fcs : List Nat) (hf : ∀ f ∈ fcs, f < m.bnd.length) : locals fbs u T fcs = locals fbs v T fcs := by
  unfold locals
  rw [h.1 T hT]
  congr 1
  refine List.flatMap_congr fun f hfm => ?_
  exact List.map_congr_left fun i hi => h.2 f (hf f hfm) i (List.mem_range.1 hi)

theorem cells_lt (m : Mesh) (c : List Nat × Nat) (h : c ∈ m.cells.zipIdx) : c.2 < m.cells.length ∧ c.1 ∈ m.cells :=
  ⟨by simpa using List.snd_lt_of_mem_zipIdx h, List.fst_mem_of_mem_zipIdx h⟩

theorem form_congr (m : Mesh) (hm : FacesOk m) (fbs : Nat) (loc : Nat → Loc K) (u u' v v' : Dofs K)
    (hu : SameDofs m fbs u u') (hv : SameDofs m fbs v v') : form m fbs loc u v = form m fbs loc u' v' := by
  unfold form
  congr 1
  refine List.map_congr_left fun c hc => ?_
  obtain ⟨c1, c2⟩ := cells_lt m c hc
  rw [locals_congr m fbs u u' hu c.2 c1 c.1 (hm _ c2), locals_congr m fbs v v' hv c.2 c1 c.1 (hm _ c2)]

theorem load_congr (mode : Mode) (m : Mesh) (hm : FacesOk m) (fbs : Nat) (loc : Nat → Loc K) (v v' : Dofs K)
    (hv : SameDofs m fbs v v') : load mode m fbs loc v = load mode m fbs loc v' := by
  unfold load
  congr 1
  refine List.map_congr_left fun c hc => ?_
  obtain ⟨c1, c2⟩ := cells_lt m c hc
  rw [locals_congr m fbs v v' hv c.2 c1 c.1 (hm _ c2)]

theorem cellPair_congr (m : Mesh) (fbs : Nat) (b b' : Nat → K) (hb : ∀ T < m.cells.length, b T = b' T) (v v' : Dofs K)
    (hv : SameDofs m fbs v v') : cellPair m b v = cellPair m b' v' := by
  unfold cellPair
  congr 1
  refine List.map_congr_left fun T hT => ?_
  rw [hv.1 T (List.mem_range.1 hT), hb T (List.mem_range.1 hT)]

theorem fet_fnum (mode : Mode) (m : Mesh) (f : Nat) (hf : f < m.bnd.length) (hd : isDir mode m f = false) :
    (etLoop ((dirs mode m).map (!·)) 0).getD (fnum mode m f) 0 = f := by
  have hl : f < (dirs mode m).length := by rw [dirs_length]; exact hf
  have := etLoop_ct ((dirs mode m).map (!·)) 0 0 f (by
    rw [isDir, List.getD_eq_getElem?_getD] at hd
    simp [List.getElem?_eq_getElem hl] at hd ⊢
    exact hd)
  rw [Nat.sub_zero, zero_add] at this
  rw [List.getD_eq_getElem?_getD, fnum, this]; rfl

theorem block_index (a n fbs i : Nat) (hi : i < fbs) :
    (a + n * fbs + i - a) / fbs = n ∧ (a + n * fbs + i - a) % fbs = i := by
  have e : a + n * fbs + i - a = i + fbs * n := by rw [Nat.mul_comm n fbs]; omega
  rw [e, Nat.add_mul_div_left _ _ (by omega), Nat.add_mul_mod_self_left, Nat.div_eq_of_lt hi, Nat.mod_eq_of_lt hi]
  simp

theorem testOf_surj (mode : Mode) (m : Mesh) (fbs : Nat) (v : Dofs K) (hv : TestFn mode m v) :
    ∃ y, SameDofs m fbs (testOf mode m fbs y) v := by
  refine ⟨fun r => if r < m.cells.length then v.cell r else
    v.face ((etLoop ((dirs mode m).map (!·)) 0).getD ((r - m.cells.length) / fbs) 0) ((r - m.cells.length) % fbs), ?_, ?_⟩
  · intro T hT
    simp [testOf, hT]
  · intro f hf i hi
    simp only [testOf]
    cases hd : isDir mode m f with
    | true => rw [if_pos rfl, hv f ((isDir_iff mode m f).1 hd)]
    | false =>
      obtain ⟨e1, e2⟩ := block_index m.cells.length (fnum mode m f) fbs i hi
      rw [if_neg (by simp), if_neg (by omega), e1, e2, fet_fnum mode m f hf hd]

theorem testOf_test (mode : Mode) (m : Mesh) (fbs : Nat) (y : Nat → K) : TestFn mode m (testOf mode m fbs y) := by
  intro f hf i
  simp [testOf, (isDir_iff mode m f).2 hf]

theorem system_iff (mode : Mode) (m : Mesh) (hm : FacesOk m) (inA : List Bool) (hA : inA.length = m.cells.length)
    (fbs : Nat) (gamma : Nat → K) (proj : Nat → Nat → K) (loc : Nat → Loc K) :
    ∃ S, system mode m (tabs mode m inA) 1 fbs gamma proj loc = .ok S ∧
      S.size = m.cells.length + fbs * (dirs mode m).count false ∧
      ∀ x, (∀ r < S.size, ∑ b ∈ range S.size, S.lhs r b * x b = S.rhs r) ↔
        Equilibrium mode m fbs loc (solOf mode m inA fbs gamma proj x) (forceOf mode m inA fbs x) := by
  obtain ⟨S, s1, s2, s3⟩ := system_spec mode m hm inA hA fbs gamma proj loc
  refine ⟨S, s1, s2, fun x => ⟨fun h v hv => ?_, fun h r hr => ?_⟩⟩
  · obtain ⟨y, hy⟩ := testOf_surj mode m fbs v hv
    have e := s3 x y
    rw [sum_eq_zero fun r hr => by rw [h r (mem_range.1 hr), sub_self, mul_zero]] at e
    rw [form_congr m hm fbs loc _ _ _ _ ⟨fun _ _ => rfl, fun _ _ _ _ => rfl⟩ hy, load_congr mode m hm fbs loc _ _ hy,
      cellPair_congr m fbs _ _ (fun _ _ => rfl) _ _ hy] at e
    exact (sub_eq_zero.1 e.symm)
  · have e := s3 x (fun z => if z = r then 1 else 0)
    rw [h _ (testOf_test mode m fbs _), sub_self] at e
    simp only [ite_mul, one_mul, zero_mul] at e
    rw [sum_ite_eq' (range S.size) r, if_pos (mem_range.2 hr)] at e
    exact sub_eq_zero.1 e

omit [CommRing K] in
theorem solOf_dirichlet (mode : Mode) (m : Mesh) (inA : List Bool) (fbs : Nat) (gamma : Nat → K) (proj : Nat → Nat → K)
    (x : Nat → K) : Dirichlet mode m proj (solOf mode m inA fbs gamma proj x) := by
  intro f hf i
  simp [solOf, (isDir_iff mode m f).2 hf]

theorem solOf_onSet (mode : Mode) (m : Mesh) (inA : List Bool) (fbs : Nat) (gamma : Nat → K) (proj : Nat → Nat → K)
    (x : Nat → K) : OnSet inA gamma (solOf mode m inA fbs gamma proj x) (forceOf mode m inA fbs x) := by
  intro T
  constructor <;> intro h <;> simp [solOf, forceOf, h]

theorem solOf_surj (mode : Mode) (m : Mesh) (inA : List Bool) (hA : inA.length = m.cells.length) (fbs : Nat)
    (gamma : Nat → K) (proj : Nat → Nat → K) (u : Dofs K) (b : Nat → K) (hu : Dirichlet mode m proj u)
    (hs : OnSet inA gamma u b) :
    ∃ x, SameDofs m fbs (solOf mode m inA fbs gamma proj x) u ∧ ∀ T < m.cells.length, forceOf mode m inA fbs x T = b T := by
  have hcase : ∀ T < m.cells.length, inA[T]? = some true ∨ inA[T]? = some false := by
    intro T hT
    rw [List.getElem?_eq_getElem (by omega)]
    cases inA[T] <;> simp
  refine ⟨fun k => if k < inA.count false then u.cell ((etLoop (inA.map (!·)) 0).getD k 0) else
    if k < inA.count false + (dirs mode m).count false * fbs then
      u.face ((etLoop ((dirs mode m).map (!·)) 0).getD ((k - inA.count false) / fbs) 0) ((k - inA.count false) % fbs)
    else b ((etLoop inA 0).getD (k - (inA.count false + (dirs mode m).count false * fbs)) 0), ⟨?_, ?_⟩, ?_⟩
  · intro T hT
    rcases hcase T hT with h | h
    · simp [solOf, h, ((hs T).1 h)]
    · have hk : (inA.map (!·))[T]? = some true := by simp [h]
      have h1 := (ctLoop_lt (inA.map (!·)) 0 T hk).2
      rw [count_map_not, zero_add] at h1
      have h2 := etLoop_ct (inA.map (!·)) 0 0 T hk
      rw [Nat.sub_zero, zero_add] at h2
      simp only [solOf, h, if_true]
      have h3 : (etLoop (inA.map (!·)) 0).getD ((ctLoop (inA.map (!·)) 0).getD T 0) 0 = T := by
        rw [List.getD, h2]; rfl
      rw [if_pos h1, h3]
  · intro f hf i hi
    simp only [solOf]
    cases hd : isDir mode m f with
    | true => rw [if_pos rfl, hu f ((isDir_iff mode m f).1 hd)]
    | false =>
      obtain ⟨e1, e2⟩ := block_index (inA.count false) (fnum mode m f) fbs i hi
      have hlt : fnum mode m f * fbs + i < (dirs mode m).count false * fbs := by
        have := fnum_lt mode m f hf hd
        calc fnum mode m f * fbs + i < (fnum mode m f + 1) * fbs := by rw [Nat.add_mul]; omega
          _ ≤ _ := Nat.mul_le_mul_right _ this
      rw [if_neg (by simp), if_neg (by omega), if_pos (by omega), e1, e2, fet_fnum mode m f hf hd]
  · intro T hT
    rcases hcase T hT with h | h
    · have h2 := etLoop_ct inA 0 0 T h
      rw [Nat.sub_zero, zero_add] at h2
      have h3 : (etLoop inA 0).getD ((ctLoop inA 0).getD T 0) 0 = T := by
        rw [List.getD, h2]; rfl
      simp only [forceOf, h, if_true]
      rw [if_neg (by omega), if_neg (by omega), Nat.add_sub_cancel_left, h3]
    · simp [forceOf, h, ((hs T).2 h)]

end

/-! ### The solver -/

theorem active_length (P : Problem) (s : Dofs ℝ × (Nat → ℝ)) : (active P s).length = P.mesh.cells.length := by
  simp [active]

theorem active_get (P : Problem) (s : Dofs ℝ × (Nat → ℝ)) (T : Nat) (hT : T < P.mesh.cells.length) :
    (active P s)[T]? = some (decide (s.2 T + (s.1.cell T - P.gamma T) < 0)) := by
  simp [active, hT]

/-- What a step gives. -/
def Good (P : Problem) (inA : List Bool) (s : Dofs ℝ × (Nat → ℝ)) : Prop :=
  Dirichlet P.mode P.mesh P.proj s.1 ∧ OnSet inA P.gamma s.1 s.2 ∧ Equilibrium P.mode P.mesh P.fbs P.loc s.1 s.2

theorem step_ok (P : Problem) (hm : FacesOk P.mesh) (hs : Solved P) (s : Dofs ℝ × (Nat → ℝ)) :
    ∃ s', step P s = .ok s' ∧ Good P (active P s) s' := by
  obtain ⟨S, s1, _, s3⟩ := system_iff P.mode P.mesh hm (active P s) (active_length P s) P.fbs P.gamma P.proj P.loc
  have hc := construct_eq P.mode P.mesh (active P s) (active_length P s)
  refine ⟨(solOf P.mode P.mesh (active P s) P.fbs P.gamma P.proj (P.solve S),
    forceOf P.mode P.mesh (active P s) P.fbs (P.solve S)), ?_, ?_, ?_, ?_⟩
  · rw [step, hc, Outcome.bind_ok, s1, Outcome.bind_ok, expand_eq]
  · exact solOf_dirichlet _ _ _ _ _ _ _
  · exact solOf_onSet _ _ _ _ _ _ _
  · exact (s3 _).1 (hs _ _ S hc s1)

theorem step_congr (P : Problem) (s s' : Dofs ℝ × (Nat → ℝ)) (h : active P s = active P s') : step P s = step P s' := by
  rw [step, step, h]

theorem fixed_complementary (P : Problem) (s s' : Dofs ℝ × (Nat → ℝ)) (h : OnSet (active P s) P.gamma s'.1 s'.2)
    (ha : active P s' = active P s) : Complementary P.mesh P.gamma s'.1 s'.2 := by
  intro T hT
  have g := active_get P s' T hT
  rw [ha] at g
  by_cases hd : s'.2 T + (s'.1.cell T - P.gamma T) < 0
  · rw [decide_eq_true hd] at g
    have e := (h T).1 g
    rw [e, sub_self, add_zero] at hd
    exact ⟨e.ge, hd.le, by rw [e, sub_self, mul_zero]⟩
  · rw [decide_eq_false hd] at g
    have e := (h T).2 g
    rw [e, zero_add] at hd
    exact ⟨by linarith [not_lt.1 hd], e.le, by rw [e, zero_mul]⟩

theorem list_sum_nonpos (l : List Nat) (f : Nat → ℝ) (h : ∀ T ∈ l, f T ≤ 0) : (l.map f).sum ≤ 0 := by
  induction l with
  | nil => simp
  | cons a l ih =>
    have h1 := h a (by simp)
    have h2 := ih fun T hT => h T (by simp [hT])
    simp only [List.map_cons, List.sum_cons]; linarith

theorem variational (mode : Mode) (m : Mesh) (fbs : Nat) (loc : Nat → Loc ℝ) (gamma : Nat → ℝ) (proj : Nat → Nat → ℝ)
    (u : Dofs ℝ) (b : Nat → ℝ) (hu : Dirichlet mode m proj u) (he : Equilibrium mode m fbs loc u b)
    (hc : Complementary m gamma u b) (v : Dofs ℝ) (hv : Dirichlet mode m proj v)
    (hg : ∀ T < m.cells.length, gamma T ≤ v.cell T) (w : Dofs ℝ)
    (hw : w = ⟨fun T => v.cell T - u.cell T, fun f i => v.face f i - u.face f i⟩) :
    load mode m fbs loc w ≤ form m fbs loc u w := by
  have h1 : TestFn mode m w := by
    intro f hf i
    rw [hw]
    simp [hv f hf i, hu f hf i]
  have h2 := he w h1
  have h3 : cellPair m b w ≤ 0 := by
    refine list_sum_nonpos _ _ fun T hT => ?_
    have hT := List.mem_range.1 hT
    obtain ⟨c1, c2, c3⟩ := hc T hT
    have := mul_nonneg_of_nonpos_of_nonpos c2 (sub_nonpos.2 (hg T hT))
    rw [hw]
    dsimp only
    nlinarith
  linarith

/-! ### Stopping -/

theorem dist_cell (P : Problem) (u v : Dofs ℝ) (T : Nat) (hT : T < P.mesh.cells.length) :
    |u.cell T - v.cell T| ≤ dist P u v := by
  refine Real.abs_le_sqrt ?_
  have h1 := List.single_le_sum (l := (List.range P.mesh.cells.length).map fun T => (u.cell T - v.cell T) ^ 2)
    (by intro z hz; obtain ⟨_, _, rfl⟩ := List.mem_map.1 hz; exact sq_nonneg _) _
    (List.mem_map.2 ⟨T, List.mem_range.2 hT, rfl⟩)
  have h2 : 0 ≤ ((List.range P.mesh.bnd.length).map fun f =>
      ((List.range P.fbs).map fun i => (u.face f i - v.face f i) ^ 2).sum).sum := by
    refine List.sum_nonneg fun z hz => ?_
    obtain ⟨f, _, rfl⟩ := List.mem_map.1 hz
    refine List.sum_nonneg fun z hz => ?_
    obtain ⟨i, _, rfl⟩ := List.mem_map.1 hz
    exact sq_nonneg _
  linarith

theorem dist_face (P : Problem) (u v : Dofs ℝ) (f : Nat) (hf : f < P.mesh.bnd.length) (i : Nat) (hi : i < P.fbs) :
    |u.face f i - v.face f i| ≤ dist P u v := by
  refine Real.abs_le_sqrt ?_
  have h0 : 0 ≤ ((List.range P.mesh.cells.length).map fun T => (u.cell T - v.cell T) ^ 2).sum := by
    refine List.sum_nonneg fun z hz => ?_
    obtain ⟨i, _, rfl⟩ := List.mem_map.1 hz
    exact sq_nonneg _
  have h1 := List.single_le_sum (l := (List.range P.fbs).map fun i => (u.face f i - v.face f i) ^ 2)
    (by intro z hz; obtain ⟨_, _, rfl⟩ := List.mem_map.1 hz; exact sq_nonneg _) _
    (List.mem_map.2 ⟨i, List.mem_range.2 hi, rfl⟩)
  have h2 := List.single_le_sum (l := (List.range P.mesh.bnd.length).map fun f =>
      ((List.range P.fbs).map fun i => (u.face f i - v.face f i) ^ 2).sum)
    (by
      intro z hz; obtain ⟨f, _, rfl⟩ := List.mem_map.1 hz
      refine List.sum_nonneg fun z hz => ?_
      obtain ⟨i, _, rfl⟩ := List.mem_map.1 hz
      exact sq_nonneg _) _
    (List.mem_map.2 ⟨f, List.mem_range.2 hf, rfl⟩)
  linarith

/-- The basis function of a cell. -/
def unit (T : Nat) : Dofs ℝ := ⟨fun S => if S = T then 1 else 0, fun _ _ => 0⟩

theorem zeros_form (A : Nat → Nat → ℝ) (u z : List ℝ) (k : Nat) (hz : ∀ a ∈ z, a = 0) :
    ((z.zipIdx k).map fun y => (u.zipIdx.map fun x => A y.2 x.2 * x.1 * y.1).sum).sum = 0 := by
  refine List.sum_eq_zero fun s hs => ?_
  obtain ⟨y, y1, rfl⟩ := List.mem_map.1 hs
  refine List.sum_eq_zero fun s hs => ?_
  obtain ⟨x, x1, rfl⟩ := List.mem_map.1 hs
  rw [hz _ (List.fst_mem_of_mem_zipIdx y1), mul_zero]

theorem locForm_unit (A : Nat → Nat → ℝ) (fbs : Nat) (u : List ℝ) (T S : Nat) (fcs : List Nat) :
    locForm A u (locals fbs (unit T) S fcs) = if S = T then (u.zipIdx.map fun x => A 0 x.2 * x.1).sum else 0 := by
  unfold locForm locals
  rw [List.zipIdx_cons, List.map_cons, List.sum_cons, zeros_form, add_zero]
  · simp only [unit]
    by_cases h : S = T <;> simp [h]
  · intro a ha
    obtain ⟨f, _, h⟩ := List.mem_flatMap.1 ha
    obtain ⟨i, _, rfl⟩ := List.mem_map.1 h
    rfl

theorem sum_single {α : Type} (l : List α) (g : α → Nat → ℝ) (k T : Nat) (c : α) (h : l[T]? = some c) :
    ((l.zipIdx k).map fun x => if x.2 = k + T then g x.1 x.2 else 0).sum = g c (k + T) := by
  induction l generalizing k T with
  | nil => simp at h
  | cons a l ih =>
    rw [List.zipIdx_cons, List.map_cons, List.sum_cons]
    cases T with
    | zero =>
      have : ((l.zipIdx (k + 1)).map fun x => if x.2 = k + 0 then g x.1 x.2 else 0).sum = 0 := by
        refine List.sum_eq_zero fun s hs => ?_
        obtain ⟨x, x1, rfl⟩ := List.mem_map.1 hs
        have := List.le_snd_of_mem_zipIdx x1
        rw [if_neg (by omega)]
      rw [this]
      simp at h
      simp [h]
    | succ T =>
      have := ih (k + 1) T (by simpa using h)
      rw [show k + 1 + T = k + (T + 1) by omega] at this
      dsimp only
      rw [this, if_neg (by omega), zero_add]

theorem form_unit (m : Mesh) (fbs : Nat) (loc : Nat → Loc ℝ) (u : Dofs ℝ) (T : Nat) (c : List Nat)
    (h : m.cells[T]? = some c) :
    form m fbs loc u (unit T) = ((locals fbs u T c).zipIdx.map fun x => (loc T).lhs 0 x.2 * x.1).sum := by
  unfold form
  simp only [locForm_unit]
  have := sum_single m.cells (fun d S => ((locals fbs u S d).zipIdx.map fun x => (loc S).lhs 0 x.2 * x.1).sum) 0 T c h
  simp only [zero_add] at this
  exact this

theorem cellPair_unit (m : Mesh) (b : Nat → ℝ) (T : Nat) (hT : T < m.cells.length) : cellPair m b (unit T) = b T := by
  unfold cellPair unit
  simp only [mul_ite, mul_one, mul_zero]
  change ∑ S ∈ range m.cells.length, (if S = T then b S else 0) = b T
  rw [sum_ite_eq' (range _) T, if_pos (mem_range.2 hT)]

theorem lin_bound (A : Nat → ℝ) (a b : List ℝ) (k : Nat) (D : ℝ) (h : List.Forall₂ (fun p q => |p - q| ≤ D) a b) :
    |((a.zipIdx k).map fun x => A x.2 * x.1).sum - ((b.zipIdx k).map fun x => A x.2 * x.1).sum| ≤
      ((List.range' k a.length).map fun j => |A j|).sum * D := by
  induction h generalizing k with
  | nil => simp
  | @cons p q a b hpq hab ih =>
    have := ih (k + 1)
    simp only [List.zipIdx_cons, List.map_cons, List.sum_cons, List.length_cons, List.range'_succ]
    have e : A k * p + ((a.zipIdx (k + 1)).map fun x => A x.2 * x.1).sum -
        (A k * q + ((b.zipIdx (k + 1)).map fun x => A x.2 * x.1).sum) = A k * (p - q) +
        (((a.zipIdx (k + 1)).map fun x => A x.2 * x.1).sum - ((b.zipIdx (k + 1)).map fun x => A x.2 * x.1).sum) := by ring
    rw [e, add_mul]
    refine (abs_add_le _ _).trans (add_le_add ?_ this)
    rw [abs_mul]
    exact mul_le_mul_of_nonneg_left hpq (abs_nonneg _)

theorem locals_close (P : Problem) (u v : Dofs ℝ) (T : Nat) (hT : T < P.mesh.cells.length) (c : List Nat)
    (hc : ∀ f ∈ c, f < P.mesh.bnd.length) :
    List.Forall₂ (fun p q => |p - q| ≤ dist P u v) (locals P.fbs u T c) (locals P.fbs v T c) := by
  refine List.Forall₂.cons (dist_cell P u v T hT) ?_
  induction c with
  | nil => exact List.Forall₂.nil
  | cons f c ih =>
    simp only [List.flatMap_cons]
    refine List.rel_append ?_ (ih fun g hg => hc g (by simp [hg]))
    rw [List.forall₂_map_left_iff, List.forall₂_map_right_iff, List.forall₂_same]
    exact fun i hi => dist_face P u v f (hc f (by simp)) i (List.mem_range.1 hi)

theorem locals_length (fbs : Nat) (u : Dofs ℝ) (T : Nat) (c : List Nat) : (locals fbs u T c).length = 1 + c.length * fbs := by
  simp [locals, List.length_flatMap]; omega

theorem unit_test (mode : Mode) (m : Mesh) (T : Nat) : TestFn mode m (unit T) := fun _ _ _ => rfl

theorem force_close (P : Problem) (hm : FacesOk P.mesh) (s s' : Dofs ℝ × (Nat → ℝ))
    (h : Equilibrium P.mode P.mesh P.fbs P.loc s.1 s.2) (h' : Equilibrium P.mode P.mesh P.fbs P.loc s'.1 s'.2) (T : Nat)
    (hT : T < P.mesh.cells.length) : |s.2 T - s'.2 T| ≤ rowNorm P T * dist P s.1 s'.1 := by
  have e := h (unit T) (unit_test _ _ _)
  have e' := h' (unit T) (unit_test _ _ _)
  have hc : P.mesh.cells[T]? = some P.mesh.cells[T] := List.getElem?_eq_getElem hT
  rw [cellPair_unit _ _ T hT, form_unit _ _ _ _ T _ hc] at e e'
  have := lin_bound (fun j => (P.loc T).lhs 0 j) _ _ 0 _
    (locals_close P s.1 s'.1 T hT P.mesh.cells[T] (hm _ (List.getElem_mem hT)))
  rw [locals_length, ← List.range_eq_range'] at this
  rw [rowNorm, List.getD_eq_getElem?_getD, hc, Option.getD_some]
  refine le_trans (le_of_eq ?_) this
  rw [← abs_neg]
  congr 1
  linarith

theorem dist_nonneg (P : Problem) (u v : Dofs ℝ) : 0 ≤ dist P u v := Real.sqrt_nonneg _

theorem near_step (P : Problem) (hm : FacesOk P.mesh) (inA : List Bool) (hA : inA.length = P.mesh.cells.length)
    (s s' : Dofs ℝ × (Nat → ℝ)) (g : Good P inA s) (g' : Good P (active P s) s') : NearlyCompl P (dist P s.1 s'.1) s' := by
  intro T hT
  have hcell := abs_le.1 (dist_cell P s.1 s'.1 T hT)
  have hf := abs_le.1 (force_close P hm s s' g.2.2 g'.2.2 T hT)
  have hg := active_get P s T hT
  have hin : inA[T]? = some inA[T] := List.getElem?_eq_getElem (by omega)
  by_cases hd : s.2 T + (s.1.cell T - P.gamma T) < 0
  · rw [decide_eq_true hd] at hg
    have e := (g'.2.1 T).1 hg
    have hneg : s.2 T ≤ 0 := by
      cases hb : inA[T]
      · rw [hb] at hin; exact ((g.2.1 T).2 hin).le
      · rw [hb] at hin
        rw [(g.2.1 T).1 hin] at hd
        linarith
    refine ⟨?_, ?_, ?_⟩
    · rw [e]; linarith [dist_nonneg P s.1 s'.1]
    · linarith
    · rw [e, sub_self, mul_zero]
  · rw [decide_eq_false hd] at hg
    have e := (g'.2.1 T).2 hg
    have hpos : P.gamma T ≤ s.1.cell T := by
      cases hb : inA[T]
      · rw [hb] at hin
        rw [(g.2.1 T).2 hin] at hd
        linarith
      · rw [hb] at hin; exact ((g.2.1 T).1 hin).ge
    refine ⟨by linarith, ?_, by rw [e, zero_mul]⟩
    rw [e]
    refine mul_nonneg (List.sum_nonneg fun z hz => ?_) (dist_nonneg ..)
    obtain ⟨_, _, rfl⟩ := List.mem_map.1 hz
    exact abs_nonneg _

theorem rowNorm_nonneg (P : Problem) (T : Nat) : 0 ≤ rowNorm P T := by
  refine List.sum_nonneg fun z hz => ?_
  obtain ⟨_, _, rfl⟩ := List.mem_map.1 hz
  exact abs_nonneg _

theorem near_mono (P : Problem) (d e : ℝ) (h : d ≤ e) (s : Dofs ℝ × (Nat → ℝ)) (hs : NearlyCompl P d s) : NearlyCompl P e s := by
  intro T hT
  obtain ⟨a, b, c⟩ := hs T hT
  exact ⟨by linarith, b.trans (mul_le_mul_of_nonneg_left h (rowNorm_nonneg P T)), c⟩

theorem near_first (P : Problem) (hg : ∀ T < P.mesh.cells.length, P.gamma T ≤ 0) (s' : Dofs ℝ × (Nat → ℝ))
    (g' : Good P (active P (⟨fun _ => 0, fun _ _ => 0⟩, fun _ => 1)) s') :
    NearlyCompl P (dist P ⟨fun _ => 0, fun _ _ => 0⟩ s'.1) s' := by
  intro T hT
  have hcell := abs_le.1 (dist_cell P ⟨fun _ => 0, fun _ _ => 0⟩ s'.1 T hT)
  have h := active_get P (⟨fun _ => 0, fun _ _ => 0⟩, fun _ => 1) T hT
  dsimp only at hcell h
  have := hg T hT
  rw [decide_eq_false (by linarith)] at h
  have e := (g'.2.1 T).2 h
  exact ⟨by linarith, by rw [e]; exact mul_nonneg (rowNorm_nonneg P T) (dist_nonneg ..), by rw [e, zero_mul]⟩

theorem loop_near (P : Problem) (hm : FacesOk P.mesh) (hs : Solved P) (tol : ℝ) (n : Nat) (inA : List Bool)
    (hA : inA.length = P.mesh.cells.length) (s r : Dofs ℝ × (Nat → ℝ)) (g : Good P inA s)
    (h : loop P tol n s = .ok (r, true)) :
    NearlyCompl P tol r ∧ Dirichlet P.mode P.mesh P.proj r.1 ∧ Equilibrium P.mode P.mesh P.fbs P.loc r.1 r.2 := by
  induction n generalizing s inA with
  | zero => simp [loop] at h
  | succ n ih =>
    obtain ⟨s', s1, s2⟩ := step_ok P hm hs s
    rw [loop, s1, Outcome.bind_ok] at h
    split_ifs at h with hd
    · simp only [Outcome.ok.injEq, Prod.mk.injEq, and_true] at h
      subst h
      exact ⟨near_mono P _ _ hd.le _ (near_step P hm inA hA s s' g s2), s2.1, s2.2.2⟩
    · exact ih _ (active_length P s) s' s2 h

theorem loop_ok (P : Problem) (hm : FacesOk P.mesh) (hs : Solved P) (tol : ℝ) (n : Nat) (s : Dofs ℝ × (Nat → ℝ)) :
    ∃ r, loop P tol n s = .ok r := by
  induction n generalizing s with
  | zero => exact ⟨_, rfl⟩
  | succ n ih =>
    obtain ⟨s', s1, _⟩ := step_ok P hm hs s
    rw [loop, s1, Outcome.bind_ok]
    split_ifs
    · exact ⟨_, rfl⟩
    · exact ih s'

/-! ### A positive obstacle -/

/-- One cell without faces, matrix 1, load 0, obstacle 1/2. -/
noncomputable def highObstacle : Problem :=
  ⟨.nitsche, ⟨[], [[]]⟩, 1, fun _ => ⟨fun _ _ => 1, fun _ => 0⟩, fun _ => 1 / 2, fun _ _ => 0, fun S _ => S.rhs 0⟩

theorem high_faces : FacesOk highObstacle.mesh := by
  intro c hc f hf
  simp only [highObstacle, List.mem_singleton] at hc
  subst hc
  simp at hf

theorem high_system (a : Bool) :
    ∃ S, system highObstacle.mode highObstacle.mesh (tabs highObstacle.mode highObstacle.mesh [a]) 1 highObstacle.fbs
        highObstacle.gamma highObstacle.proj highObstacle.loc = .ok S ∧
      S.size = 1 ∧ S.lhs 0 0 = 1 ∧ S.rhs 0 = if a then -(1 / 2) else 0 := by
  obtain ⟨S, s1, s2, s3⟩ := system_spec highObstacle.mode highObstacle.mesh high_faces [a] rfl highObstacle.fbs
    highObstacle.gamma highObstacle.proj highObstacle.loc
  have hz : S.size = 1 := by rw [s2]; rfl
  have e0 := s3 (fun _ => 0) (fun _ => 1)
  have e1 := s3 (fun _ => 1) (fun _ => 1)
  rw [hz] at e0 e1
  simp only [range_one, sum_singleton, one_mul, mul_one, mul_zero, form, cellPair, load, highObstacle, List.zipIdx_cons,
    List.zipIdx_nil, List.map_cons, List.map_nil, List.sum_cons, List.sum_nil, locForm, locals, List.flatMap_nil, testOf,
    solOf, forceOf, List.getElem?_cons_zero, List.length_cons, List.length_nil, zero_add, List.range_one, add_zero] at e0 e1
  refine ⟨S, s1, hz, ?_, ?_⟩ <;> cases a <;> simp [cellLoad] at e0 e1 ⊢ <;> linarith

end Verif.Lemmas.Obstacle
