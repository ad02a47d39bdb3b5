import Verif.Lemmas.DgSolver
import Verif.Props.Assembly
/-!
The matrix and the right-hand side assembled by the discontinuous Galerkin solver as forms.
-/
namespace Verif.Lemmas.Dg
open Finset Verif.Hho Verif.DgSolver Verif.Spec.Hho Verif.Spec.Dg Verif.Lemmas.Hho LocalMatrix Neighbours
open Assembly (DGCall callMat callVec CallOk DG)

variable {K P : Type} [Field K]

theorem sum_block {cbs n a : Nat} (h0 : 0 < cbs) (ha : a < n) (g : Nat → Nat → K) :
    (∑ i ∈ range (cbs * n), if i / cbs = a then g i (i % cbs) else 0) = ∑ k ∈ range cbs, g (cbs * a + k) k := by
  have hle : cbs * a + cbs ≤ cbs * n := by
    calc cbs * a + cbs = cbs * (a + 1) := by ring
      _ ≤ cbs * n := Nat.mul_le_mul_left _ ha
  rw [← sum_seg hle (fun i => g i (i - cbs * a)) |>.trans (sum_congr rfl fun k _ => by rw [Nat.add_sub_cancel_left])]
  refine sum_congr rfl fun i _ => ?_
  have e := Assembly.div_iff_range cbs a i h0
  rw [Nat.mul_succ] at e
  by_cases h : i / cbs = a
  · rw [if_pos h, if_pos (e.1 h), Assembly.mod_of_range cbs a i (e.1 h).1 (by rw [Nat.mul_succ]; exact (e.1 h).2)]
  · rw [if_neg h, if_neg fun h' => h (e.2 h')]

theorem form_blockEntry {cbs n a b : Nat} (h0 : 0 < cbs) (ha : a < n) (hb : b < n) (A : Nat → Nat → K) (y x : Nat → K) :
    form (cbs * n) (Spec.blockEntry cbs a b A) y x = form cbs A (part cbs y a) (part cbs x b) := by
  unfold form app
  have e1 : ∀ i, y i * ∑ j ∈ range (cbs * n), Spec.blockEntry cbs a b A i j * x j =
      if i / cbs = a then y i * ∑ l ∈ range cbs, A (i % cbs) l * x (cbs * b + l) else 0 := by
    intro i
    by_cases h : i / cbs = a
    · rw [if_pos h]
      congr 1
      rw [← sum_block h0 hb fun j l => A (i % cbs) l * x j]
      refine sum_congr rfl fun j _ => ?_
      unfold Spec.blockEntry
      by_cases h' : j / cbs = b
      · rw [if_pos ⟨h, h'⟩, if_pos h']
      · rw [if_neg fun hh => h' hh.2, if_neg h', zero_mul]
    · rw [if_neg h]
      have : ∑ j ∈ range (cbs * n), Spec.blockEntry cbs a b A i j * x j = 0 :=
        sum_eq_zero fun j _ => by unfold Spec.blockEntry; rw [if_neg fun hh => h hh.1, zero_mul]
      rw [this, mul_zero]
  rw [sum_congr rfl fun i _ => e1 i, sum_block h0 ha fun i k => y i * ∑ l ∈ range cbs, A k l * x (cbs * b + l)]
  rfl

theorem sum_blockVec {cbs n a : Nat} (h0 : 0 < cbs) (ha : a < n) (r : Nat → K) (y : Nat → K) :
    ∑ i ∈ range (cbs * n), Spec.blockVec cbs a r i * y i = ∑ i ∈ range cbs, r i * part cbs y a i := by
  rw [show ∑ i ∈ range cbs, r i * part cbs y a i = ∑ i ∈ range cbs, r i * y (cbs * a + i) from rfl,
    ← sum_block h0 ha fun i k => r k * y i]
  refine sum_congr rfl fun i _ => ?_
  unfold Spec.blockVec
  by_cases h : i / cbs = a
  · rw [if_pos h, if_pos h]
  · rw [if_neg h, if_neg h, zero_mul]

/-- The form of the matrix a call adds. -/
def callForm (cbs n : Nat) (y x : Nat → K) (c : DGCall K) : K := form (cbs * n) (callMat cbs c) y x
/-- The functional of the vector a call adds. -/
def callLoad (cbs n : Nat) (y : Nat → K) (c : DGCall K) : K := ∑ i ∈ range (cbs * n), callVec cbs c i * y i

theorem sides_sum_pair {d k : Nat} {eta : K} {m : Mesh P K} {f : Nat} {s t : Nat × (Nat → K)}
    (h : sides m f = [s, t] ∨ sides m f = [t, s]) (Y X : Nat → Nat → K) :
    ((sides m f).map fun t => pair d k eta m f Y X s t).sum = pair d k eta m f Y X s s + pair d k eta m f Y X s t := by
  rcases h with h | h
  · simp [h]
  · simp [h, add_comm]

/-- What the calls of a face contribute. -/
theorem face_calls {d k cbs : Nat} {eta : K} {m : Mesh P K} (h : MeshOk d k cbs m) {o : List Owner}
    (ho : connectivity m.topo = .ok o) {a : Nat} (ha : a < m.ncells) :
    ∀ qs : List (Nat × (Nat → K)), (∀ q ∈ qs, q ∈ (m.cell a).fcs) → ∃ cs, faceCalls d k eta m o a qs = .ok cs ∧
      (∀ c ∈ cs, CallOk cbs m.ncells c ∧ c ≠ .finalize) ∧ (∀ y, (cs.map (callLoad cbs m.ncells y)).sum = 0) ∧
      ∀ y x, (cs.map (callForm cbs m.ncells y x)).sum = (qs.map fun q => ((sides m q.1).map fun t =>
        pair d k eta m q.1 (part cbs y) (part cbs x) (a, q.2) t).sum).sum
  | [], _ => ⟨[], rfl, by simp, by simp, by simp⟩
  | q :: qs, hq => by
    obtain ⟨cs, h1, h2, h3, h4⟩ := face_calls (eta := eta) h ho ha qs fun q hq' => hq q (List.mem_cons_of_mem _ hq')
    have hqa := hq q List.mem_cons_self
    have hsa := h.size a ha
    have hun := h.unit a ha q hqa
    rcases neighbour_sides h ho ha hqa with ⟨b, n, hv, hb, hne, hqb, hsides⟩ | ⟨b, hv, hb, hsides⟩
    · have hop : ∀ c < d, n c = -q.2 c := h.opposite a ha b hb (Ne.symm hne) q hqa _ hqb rfl
      have hsz : ((m.cell a).elem.basis k).size = ((m.cell b).elem.basis k).size := by rw [hsa, h.size b hb]
      refine ⟨_, by
        simp only [faceCalls, hv, Outcome.bind_ok, hsz, if_true, h1]; rfl, ?_, ?_, ?_⟩
      · intro c hc
        simp only [List.cons_append, List.nil_append, List.mem_cons] at hc
        rcases hc with rfl | rfl | hc
        · exact ⟨⟨ha, ha, by rw [← hsz, hsa], by rw [← hsz, hsa]⟩, by simp⟩
        · exact ⟨⟨ha, hb, by rw [← hsz, hsa], by rw [← hsz, hsa]⟩, by simp⟩
        · exact h2 c hc
      · intro y
        simp only [List.cons_append, List.nil_append, List.map_cons, List.sum_cons, h3 y]
        simp [callLoad, callVec]
      · intro y x
        simp only [List.cons_append, List.nil_append, List.map_cons, List.sum_cons, h4 y x]
        rw [← add_assoc]
        congr 1
        rw [sides_sum_pair hsides]
        unfold callForm callMat
        rw [form_blockEntry h.pos ha ha, form_blockEntry h.pos ha hb, att_form h.size ha, atn_form h.size ha hb]
        have hl : ((sides m q.1).length : K) = 2 := by rcases hsides with e | e <;> simp [e]
        have hd1 : dot d q.2 n = -1 := by
          rw [← hun]
          unfold dot
          rw [← sum_neg_distrib]
          exact sum_congr rfl fun c hc => by rw [hop c (mem_range.1 hc)]; ring
        have hd2 : ∀ g : Nat → K, dot d g n = -dot d g q.2 := by
          intro g
          unfold dot
          rw [← sum_neg_distrib]
          exact sum_congr rfl fun c hc => by rw [hop c (mem_range.1 hc)]; ring
        unfold pair
        simp only [hl, hd1, hd2, hun, if_true]
        congr 1
        · exact quad_congr fun q _ => by ring
        · exact quad_congr fun q _ => by ring
    · have hsz : ((m.cell a).elem.basis k).size = ((m.cell b).elem.basis k).size := by rw [hsa, h.size b hb]
      refine ⟨_, by
        simp only [faceCalls, hv, Outcome.bind_ok, hsz, if_true, h1]; rfl, ?_, ?_, ?_⟩
      · intro c hc
        simp only [Bool.false_eq_true, if_false, List.nil_append, List.mem_cons] at hc
        rcases hc with rfl | hc
        · exact ⟨⟨ha, ha, by rw [← hsz, hsa], by rw [← hsz, hsa]⟩, by simp⟩
        · exact h2 c hc
      · intro y
        simp only [Bool.false_eq_true, if_false, List.nil_append, List.map_cons, List.sum_cons, h3 y]
        simp [callLoad, callVec]
      · intro y x
        simp only [Bool.false_eq_true, if_false, List.nil_append, List.map_cons, List.sum_cons, h4 y x]
        congr 1
        unfold callForm callMat
        rw [form_blockEntry h.pos ha ha, att_form h.size ha, hsides]
        simp only [List.map_cons, List.map_nil, List.sum_cons, List.sum_nil, add_zero]
        unfold pair
        simp only [hsides, List.length_singleton, Nat.cast_one, hun, Bool.false_eq_true, if_false]
        exact quad_congr fun q _ => by ring

/-- What all calls contribute. -/
theorem cell_calls {d k cbs : Nat} {eta : K} {m : Mesh P K} (h : MeshOk d k cbs m) (f : P → K)
    {o : List Owner} (ho : connectivity m.topo = .ok o) :
    ∀ as : List Nat, (∀ a ∈ as, a < m.ncells) → ∃ cs, cellCalls d k eta m f o as = .ok cs ∧
      (∀ c ∈ cs, CallOk cbs m.ncells c ∧ c ≠ .finalize) ∧
      (∀ y, (cs.map (callLoad cbs m.ncells y)).sum = (as.map fun a =>
        quad ((m.cell a).elem.integrate (2 * k)) fun x => f x * Spec.Dg.val k m (part cbs y) a x).sum) ∧
      ∀ y x, (cs.map (callForm cbs m.ncells y x)).sum = (as.map fun a => cellForm d k m (part cbs y) (part cbs x) a +
        ((m.cell a).fcs.map fun q => ((sides m q.1).map fun t =>
          pair d k eta m q.1 (part cbs y) (part cbs x) (a, q.2) t).sum).sum).sum
  | [], _ => ⟨[], rfl, by simp, by simp, by simp⟩
  | a :: as, hm => by
    obtain ⟨cs, h1, h2, h3, h4⟩ := cell_calls (eta := eta) h f ho as fun a ha => hm a (List.mem_cons_of_mem _ ha)
    have ha := hm a List.mem_cons_self
    obtain ⟨fs, g1, g2, g3, g4⟩ := face_calls (eta := eta) h ho ha (m.cell a).fcs fun q hq => hq
    refine ⟨_, by simp only [cellCalls, g1, h1, Outcome.bind_ok]; rfl, ?_, ?_, ?_⟩
    · intro c hc
      simp only [List.mem_append, List.mem_cons] at hc
      rcases hc with hc | rfl | hc
      · exact g2 c hc
      · exact ⟨⟨ha, h.size a ha, h.size a ha, by simp [h.size a ha]⟩, by simp⟩
      · exact h2 c hc
    · intro y
      simp only [List.map_append, List.sum_append, List.map_cons, List.sum_cons, g3 y, h3 y, zero_add]
      congr 1
      unfold callLoad callVec
      rw [sum_blockVec h.pos ha, ← load_form h.size ha]
      refine sum_congr rfl fun i hi => ?_
      congr 1
      have : i < ((m.cell a).elem.basis k).size := by rw [h.size a ha]; exact mem_range.1 hi
      simp [List.getD, this]
    · intro y x
      simp only [List.map_append, List.sum_append, List.map_cons, List.sum_cons, g4 y x, h4 y x]
      have : callForm cbs m.ncells y x (.cell a ⟨((m.cell a).elem.basis k).size, ((m.cell a).elem.basis k).size,
          cellMat d k (m.cell a).elem⟩ ((List.range ((m.cell a).elem.basis k).size).map (cellRhs k (m.cell a).elem f))) =
          cellForm d k m (part cbs y) (part cbs x) a := by
        unfold callForm callMat
        rw [form_blockEntry h.pos ha ha]
        exact cell_form h.size ha ..
      rw [this]
      ring

theorem list_range_sum (n : Nat) (g : Nat → K) : ((List.range n).map g).sum = ∑ a ∈ range n, g a := by
  induction n with
  | zero => rfl
  | succ n ih => rw [List.range_succ, List.map_append, List.sum_append, ih, sum_range_succ]; simp

theorem list_add {ι : Type} (l : List ι) (g g' : ι → K) :
    (l.map fun i => g i + g' i).sum = (l.map g).sum + (l.map g').sum := by
  induction l with
  | nil => simp
  | cons i l ih => simp only [List.map_cons, List.sum_cons, ih]; ring

theorem filter_sum {nf : Nat} (l : List (Nat × (Nat → K))) (hl : ∀ q ∈ l, q.1 < nf) (g : Nat → (Nat → K) → K) :
    ∑ f ∈ range nf, ((l.filter fun q => q.1 = f).map fun q => g f q.2).sum = (l.map fun q => g q.1 q.2).sum := by
  induction l with
  | nil => simp
  | cons q l ih =>
    rw [List.map_cons, List.sum_cons, ← ih fun q hq => hl q (List.mem_cons_of_mem _ hq)]
    have e : ∀ f, (((q :: l).filter fun q => q.1 = f).map fun q => g f q.2).sum =
        (if q.1 = f then g f q.2 else 0) + ((l.filter fun q => q.1 = f).map fun q => g f q.2).sum := by
      intro f
      by_cases h : q.1 = f
      · simp [h]
      · simp [h]
    simp only [e, sum_add_distrib]
    congr 1
    simp [hl q List.mem_cons_self]

/-- A sum over the cells of the faces is a sum over the faces of the cells. -/
theorem sum_sides {d k cbs : Nat} {m : Mesh P K} (h : MeshOk d k cbs m) (g : Nat → Nat × (Nat → K) → K) :
    ∑ f ∈ range m.nfaces, ((sides m f).map (g f)).sum =
      ∑ a ∈ range m.ncells, ((m.cell a).fcs.map fun q => g q.1 (a, q.2)).sum := by
  have e : ∀ f, ((sides m f).map (g f)).sum =
      ∑ a ∈ range m.ncells, (((m.cell a).fcs.filter fun q => q.1 = f).map fun q => g f (a, q.2)).sum := by
    intro f
    unfold sides
    rw [← list_range_sum]
    generalize List.range m.ncells = l
    induction l with
    | nil => rfl
    | cons a l ih => rw [List.flatMap_cons, List.map_append, List.sum_append, ih, List.map_map]; rfl
  simp only [e]
  rw [sum_comm]
  exact sum_congr rfl fun a ha => filter_sum _ (h.range a (mem_range.1 ha)) fun f n => g f (a, n)

theorem form_list (n : Nat) (A : Hho.Mat K) (cs : List (DGCall K)) (cbs : Nat)
    (h : ∀ i j, A i j = (cs.map fun c => callMat cbs c i j).sum) (y x : Nat → K) :
    form n A y x = (cs.map fun c => form n (callMat cbs c) y x).sum := by
  have e : form n A y x = form n (fun i j => (cs.map fun c => callMat cbs c i j).sum) y x := by
    rw [show A = fun i j => (cs.map fun c => callMat cbs c i j).sum from funext fun i => funext fun j => h i j]
  rw [e]
  clear h e
  induction cs with
  | nil => simp [form, app]
  | cons c cs ih =>
    simp only [List.map_cons, List.sum_cons, ← ih]
    simp only [form, app, add_mul, sum_add_distrib, mul_add]

/-- The assembled system: the matrix is that of the interior penalty form, the right-hand side is the load. -/
theorem assemble_form {d k cbs : Nat} (eta : K) {m : Mesh P K} (h : MeshOk d k cbs m) (f : P → K) :
    ∃ s, assemble d k cbs eta m f = .ok s ∧ s.rhs.length = cbs * m.ncells ∧
      (∀ y x, form (cbs * m.ncells) s.lhs y x = sipForm d k eta m (part cbs y) (part cbs x)) ∧
      ∀ y, ∑ i ∈ range (cbs * m.ncells), s.rhs.getD i 0 * y i = loadForm k m f (part cbs y) := by
  obtain ⟨o, ho⟩ := connectivity_ok h
  obtain ⟨cs, h1, h2, h3, h4⟩ := cell_calls (eta := eta) h f ho (List.range m.ncells) fun a ha => List.mem_range.1 ha
  obtain ⟨s, g1, g2, g3, g4⟩ := Props.Assembly.c25_sum cbs m.ncells h.pos [] cs (.inl rfl)
    (fun c hc => (h2 c (by simpa using hc)).1) fun c hc => (h2 c hc).2
  refine ⟨s, ?_, g4, ?_, ?_⟩
  · unfold assemble
    rw [ho]
    simp only [Outcome.bind_ok, h1]
    exact g1
  · intro y x
    rw [form_list _ _ cs cbs g2 y x]
    have := h4 y x
    unfold callForm at this
    rw [this, list_add, list_range_sum, list_range_sum]
    unfold sipForm
    congr 1
    simp only [faceForm_pairs]
    rw [sum_sides h fun f s => ((sides m f).map fun t => pair d k eta m f (part cbs y) (part cbs x) s t).sum]
  · intro y
    have := h3 y
    unfold callLoad at this
    rw [list_range_sum] at this
    unfold loadForm
    rw [← this]
    simp only [List.nil_append] at g3
    simp only [g3, list_mul]
    clear this g1 g2 g3 g4 h1 h2 h3 h4
    induction cs with
    | nil => simp
    | cons c cs ih => simp only [List.map_cons, List.sum_cons, sum_add_distrib, ih]

end Verif.Lemmas.Dg
