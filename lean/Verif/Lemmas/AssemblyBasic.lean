import Verif.Lemmas.Assembly
import Mathlib.Data.List.GetD
/-! Lemmas on the basic condensed assembler, the extraction of local data and the DG assembler. -/
namespace Verif.Assembly
open Verif.Spec

section
variable {R : Type} [CommRing R]

theorem vsegAdd_spec (xs v : List R) (o : Nat) (h : o + xs.length ≤ v.length) :
    ∃ v', vsegAdd v o xs = .ok v' ∧ v'.length = v.length ∧
      ∀ g, v'.getD g 0 = v.getD g 0 + if o ≤ g ∧ g < o + xs.length then xs.getD (g - o) 0 else 0 := by
  induction xs generalizing v o with
  | nil => exact ⟨v, rfl, rfl, by intro g; simp⟩
  | cons x xs ih =>
    simp only [List.length_cons] at h
    have ho : o < v.length := by omega
    obtain ⟨v', h1, h2, h3⟩ := ih (v.set o (v[o] + x)) (o + 1) (by simp; omega)
    refine ⟨v', ?_, by simpa using h2, ?_⟩
    · simp only [vsegAdd, vadd, List.getElem?_eq_getElem ho, Outcome.bind_ok, h1]
    · intro g
      rw [h3 g]
      rcases Nat.lt_trichotomy g o with hlt | heq | hgt
      · have h5 : ¬ (o + 1 ≤ g ∧ g < o + 1 + xs.length) := by omega
        have h6 : ¬ (o ≤ g ∧ g < o + (x :: xs).length) := by omega
        rw [if_neg h5, if_neg h6]
        have : o ≠ g := by omega
        simp [List.getD, this]
      · subst heq
        have h5 : ¬ (g + 1 ≤ g ∧ g < g + 1 + xs.length) := by omega
        have h6 : (g ≤ g ∧ g < g + (x :: xs).length) := by simp
        rw [if_neg h5, if_pos h6]
        simp [ho]
      · have h8 : o ≠ g := by omega
        have h7 : g - o = (g - (o + 1)) + 1 := by omega
        by_cases h5 : o + 1 ≤ g ∧ g < o + 1 + xs.length
        · have h6 : (o ≤ g ∧ g < o + (x :: xs).length) := by simp only [List.length_cons]; omega
          rw [if_pos h5, if_pos h6, h7]
          simp [List.getD, h8]
        · have h6 : ¬ (o ≤ g ∧ g < o + (x :: xs).length) := by simp only [List.length_cons]; omega
          rw [if_neg h5, if_neg h6]
          simp [List.getD, h8]

theorem bInner_spec (lhs : Mat R) (li gi lj0 gj0 : Nat) (js : List Nat) (s : State R) (hi : li < lhs.rows)
    (hj : ∀ j ∈ js, lj0 + j < lhs.cols ∧ gj0 + j < s.rhs.length) (hg : gi < s.rhs.length) :
    ∃ s', bInner lhs li gi lj0 gj0 js s = .ok s' ∧ Same s s' ∧ (InRange s → InRange s') ∧
      ∀ u g, resid s' u g = resid s u g +
        if g = gi then (js.map (fun j => lhs.entry li (lj0 + j) * u (gj0 + j))).sum else 0 := by
  induction js generalizing s with
  | nil => exact ⟨s, rfl, .refl s, id, by simp⟩
  | cons j js ih =>
    obtain ⟨hj1, hj2⟩ := hj j (by simp)
    obtain ⟨s', h1, h2, h3, h4⟩ := ih { s with triplets := s.triplets ++ [(gi, gj0 + j, lhs.entry li (lj0 + j))] }
      (fun j hj' => hj j (List.mem_cons_of_mem _ hj')) hg
    refine ⟨s', ?_, ⟨h2.dir, h2.fbs, h2.compress, h2.expand, h2.size, h2.len⟩, ?_, ?_⟩
    · simp only [bInner, Mat.get, hi, hj1, and_self, if_true, Outcome.bind_ok, h1]
    · intro hr
      apply h3
      intro t ht
      simp only [List.mem_append, List.mem_singleton] at ht
      rcases ht with ht | rfl
      · exact hr t ht
      · exact ⟨hg, hj2⟩
    · intro u g
      rw [h4 u g]
      simp only [resid, rowSum_append, List.map_cons, List.sum_cons]
      by_cases hgg : g = gi
      · subst hgg
        simp [rowSum]; ring
      · have : ¬ gi = g := fun h => hgg h.symm
        simp [rowSum, hgg, this]

theorem bBlock_spec (lhs : Mat R) (li0 gi0 lj0 gj0 b : Nat) (is : List Nat) (s : State R)
    (hi : ∀ i ∈ is, li0 + i < lhs.rows ∧ gi0 + i < s.rhs.length) (hj : ∀ j < b, lj0 + j < lhs.cols ∧ gj0 + j < s.rhs.length) :
    ∃ s', bBlock lhs li0 gi0 lj0 gj0 b is s = .ok s' ∧ Same s s' ∧ (InRange s → InRange s') ∧
      ∀ u g, resid s' u g = resid s u g + (is.map (fun i => if g = gi0 + i then
        ∑ j ∈ Finset.range b, lhs.entry (li0 + i) (lj0 + j) * u (gj0 + j) else 0)).sum := by
  induction is generalizing s with
  | nil => exact ⟨s, rfl, .refl s, id, by simp⟩
  | cons i is ih =>
    obtain ⟨hi1, hi2⟩ := hi i (by simp)
    obtain ⟨s1, h1, h2, h3, h4⟩ := bInner_spec lhs (li0 + i) (gi0 + i) lj0 gj0 (List.range b) s hi1
      (by intro j hj'; exact hj j (List.mem_range.1 hj')) hi2
    obtain ⟨s', h5, h6, h7, h8⟩ := ih s1 (by
      intro i hi'; rw [h2.len]; exact hi i (List.mem_cons_of_mem _ hi')) (by rw [h2.len]; exact hj)
    refine ⟨s', by simp only [bBlock, h1, Outcome.bind_ok, h5], h2.trans h6, fun hr => h7 (h3 hr), ?_⟩
    intro u g
    rw [h8 u g, h4 u g, sum_range_list]
    simp only [List.map_cons, List.sum_cons]
    ring

/-- Contribution of one column block. -/
def colTerm (s : State R) (lhs : Mat R) (li gi : Nat) (u : Nat → R) (g : Nat) (x : Nat × Nat) : R :=
  if s.dir[x.1]? = some false then
    ∑ i ∈ Finset.range s.fbs, if g = gi * s.fbs + i then
      ∑ j ∈ Finset.range s.fbs, lhs.entry (li * s.fbs + i) (x.2 * s.fbs + j) * u (unknownPos s.dir x.1 * s.fbs + j)
      else 0
  else 0

theorem pos_range (s : State R) (hs : Good s) (f : Nat) (h : s.dir[f]? = some false) (j : Nat) (hj : j < s.fbs) :
    unknownPos s.dir f * s.fbs + j < s.rhs.length := by
  have hlt := unknownPos_lt s.dir f h
  rw [hs.rlen, hs.size]
  have h6 : unknownPos s.dir f * s.fbs + s.fbs ≤ s.dir.count false * s.fbs := by
    rw [← Nat.succ_mul]; exact Nat.mul_le_mul_right _ hlt
  rw [Nat.mul_comm s.fbs]
  omega

theorem colTerm_same (s s' : State R) (h : Same s s') (lhs : Mat R) (li gi : Nat) (u : Nat → R) (g : Nat) (x : Nat × Nat) :
    colTerm s' lhs li gi u g x = colTerm s lhs li gi u g x := by
  unfold colTerm; rw [h.dir, h.fbs]

theorem bCols_spec (lhs : Mat R) (li gi : Nat) (fs : List Nat) (lj : Nat) (s : State R) (hs : Good s)
    (hf : ∀ f ∈ fs, f < s.dir.length) (hr : ∀ i < s.fbs, li * s.fbs + i < lhs.rows ∧ gi * s.fbs + i < s.rhs.length)
    (hc : (lj + fs.length) * s.fbs ≤ lhs.cols) :
    ∃ s', bCols lhs li gi fs lj s = .ok s' ∧ Same s s' ∧ (InRange s → InRange s') ∧
      ∀ u g, resid s' u g = resid s u g + ((fs.zipIdx lj).map (colTerm s lhs li gi u g)).sum := by
  induction fs generalizing s lj with
  | nil => exact ⟨s, rfl, .refl s, id, by simp⟩
  | cons f fs ih =>
    have hfl := hf f (by simp)
    have hd : s.dir[f]? = some s.dir[f] := by simp [hfl]
    simp only [List.length_cons] at hc
    have hc' : (lj + 1 + fs.length) * s.fbs ≤ lhs.cols := by
      have : lj + 1 + fs.length = lj + (fs.length + 1) := by omega
      rw [this]; exact hc
    by_cases hb : s.dir[f] = true
    · obtain ⟨s', h1, h2, h3, h4⟩ := ih (lj + 1) s hs (fun x hx => hf x (List.mem_cons_of_mem _ hx)) hr hc'
      refine ⟨s', ?_, h2, h3, ?_⟩
      · simp only [bCols, vget, hd, Outcome.bind_ok, hb, if_true, h1]
      · intro u g
        rw [h4 u g]
        simp [colTerm, hd, hb]
    · have hbf : s.dir[f]? = some false := by rw [hd]; simpa using hb
      have hcp := hs.cpos f hbf
      have hj : ∀ j < s.fbs, lj * s.fbs + j < lhs.cols ∧ unknownPos s.dir f * s.fbs + j < s.rhs.length := by
        intro j hj
        refine ⟨?_, pos_range s hs f hbf j hj⟩
        have : (lj + (fs.length + 1)) * s.fbs = lj * s.fbs + s.fbs + fs.length * s.fbs := by ring
        rw [this] at hc
        have := Nat.zero_le (fs.length * s.fbs)
        omega
      obtain ⟨s1, h1, h2, h3, h4⟩ := bBlock_spec lhs (li * s.fbs) (gi * s.fbs) (lj * s.fbs)
        (unknownPos s.dir f * s.fbs) s.fbs (List.range s.fbs) s
        (by intro i hi; exact hr i (List.mem_range.1 hi)) hj
      obtain ⟨s', h5, h6, h7, h8⟩ := ih (lj + 1) s1 (hs.same h2)
        (by rw [h2.dir]; exact fun x hx => hf x (List.mem_cons_of_mem _ hx)) (by rw [h2.fbs, h2.len]; exact hr)
        (by rw [h2.fbs]; exact hc')
      refine ⟨s', ?_, h2.trans h6, fun hr => h7 (h3 hr), ?_⟩
      · simp only [bCols, vget, hd, Outcome.bind_ok, hb, Bool.false_eq_true, if_false, hcp, h1, h5]
      · intro u g
        have e2 : colTerm s1 lhs li gi u g = colTerm s lhs li gi u g :=
          funext fun y => colTerm_same s s1 h2 lhs li gi u g y
        rw [h8 u g, h4 u g, sum_range_list, e2]
        simp only [List.zipIdx_cons, List.map_cons, List.sum_cons]
        have : colTerm s lhs li gi u g (f, lj) = ∑ i ∈ Finset.range s.fbs, if g = gi * s.fbs + i then
            ∑ j ∈ Finset.range s.fbs, lhs.entry (li * s.fbs + i) (lj * s.fbs + j) * u (unknownPos s.dir f * s.fbs + j)
            else 0 := by
          simp [colTerm, hbf]
        rw [this]
        ring

/-- Contribution of one row block. -/
def rowTerm (s : State R) (lhs : Mat R) (rhs : List R) (all : List Nat) (u : Nat → R) (g : Nat) (x : Nat × Nat) : R :=
  if s.dir[x.1]? = some false then
    ((all.zipIdx 0).map (colTerm s lhs x.2 (unknownPos s.dir x.1) u g)).sum -
      if unknownPos s.dir x.1 * s.fbs ≤ g ∧ g < unknownPos s.dir x.1 * s.fbs + s.fbs then
        rhs.getD (x.2 * s.fbs + (g - unknownPos s.dir x.1 * s.fbs)) 0 else 0
  else 0

theorem rowTerm_same (s s' : State R) (h : Same s s') (lhs : Mat R) (rhs : List R) (all : List Nat) (u : Nat → R) (g : Nat)
    (x : Nat × Nat) : rowTerm s' lhs rhs all u g x = rowTerm s lhs rhs all u g x := by
  unfold rowTerm
  have : colTerm s' lhs x.2 (unknownPos s.dir x.1) u g = colTerm s lhs x.2 (unknownPos s.dir x.1) u g := by
    funext y; exact colTerm_same s s' h lhs _ _ u g y
  rw [h.dir, h.fbs, this]

theorem bRows_spec (lhs : Mat R) (rhs : List R) (all fs : List Nat) (li : Nat) (s : State R) (hs : Good s)
    (hf : ∀ f ∈ fs, f < s.dir.length) (ha : ∀ f ∈ all, f < s.dir.length)
    (hr : (li + fs.length) * s.fbs ≤ lhs.rows) (hrr : (li + fs.length) * s.fbs ≤ rhs.length)
    (hc : all.length * s.fbs ≤ lhs.cols) :
    ∃ s', bRows lhs rhs all fs li s = .ok s' ∧ Same s s' ∧ (InRange s → InRange s') ∧
      ∀ u g, resid s' u g = resid s u g + ((fs.zipIdx li).map (rowTerm s lhs rhs all u g)).sum := by
  induction fs generalizing s li with
  | nil => exact ⟨s, rfl, .refl s, id, by simp⟩
  | cons f fs ih =>
    have hfl := hf f (by simp)
    have hd : s.dir[f]? = some s.dir[f] := by simp [hfl]
    simp only [List.length_cons] at hr hrr
    have he : li + 1 + fs.length = li + (fs.length + 1) := by omega
    by_cases hb : s.dir[f] = true
    · obtain ⟨s', h1, h2, h3, h4⟩ := ih (li + 1) s hs (fun x hx => hf x (List.mem_cons_of_mem _ hx)) ha
        (by rw [he]; exact hr) (by rw [he]; exact hrr) hc
      refine ⟨s', ?_, h2, h3, ?_⟩
      · simp only [bRows, vget, hd, Outcome.bind_ok, hb, if_true, h1]
      · intro u g
        rw [h4 u g]
        simp [rowTerm, hd, hb]
    · have hbf : s.dir[f]? = some false := by rw [hd]; simpa using hb
      have hcp := hs.cpos f hbf
      have e0 : (li + (fs.length + 1)) * s.fbs = li * s.fbs + s.fbs + fs.length * s.fbs := by ring
      have hle : li * s.fbs + s.fbs ≤ lhs.rows := by
        rw [e0] at hr
        have := Nat.zero_le (fs.length * s.fbs); omega
      have hle2 : li * s.fbs + s.fbs ≤ rhs.length := by
        rw [e0] at hrr
        have := Nat.zero_le (fs.length * s.fbs); omega
      obtain ⟨s1, h1, h2, h3, h4⟩ := bCols_spec lhs li (unknownPos s.dir f) all 0 s hs ha
        (by intro i hi; exact ⟨by omega, pos_range s hs f hbf i hi⟩) (by simpa using hc)
      have hseg : vseg rhs (li * s1.fbs) s1.fbs = .ok ((rhs.drop (li * s.fbs)).take s.fbs) := by
        rw [h2.fbs]; unfold vseg; rw [if_pos hle2]
      have hseglen : ((rhs.drop (li * s.fbs)).take s.fbs).length = s.fbs := by
        simp; omega
      have hfit : unknownPos s.dir f * s.fbs + s.fbs ≤ s1.rhs.length := by
        rw [h2.len, hs.rlen, hs.size, Nat.mul_comm s.fbs, ← Nat.succ_mul]
        exact Nat.mul_le_mul_right _ (unknownPos_lt s.dir f hbf)
      obtain ⟨v, h9, h10, h11⟩ := vsegAdd_spec ((rhs.drop (li * s.fbs)).take s.fbs) s1.rhs (unknownPos s.dir f * s.fbs)
        (by rw [hseglen]; exact hfit)
      have hsame1 : Same s { s1 with rhs := v } :=
        h2.trans ⟨rfl, rfl, rfl, rfl, rfl, h10⟩
      obtain ⟨s', h5, h6, h7, h8⟩ := ih (li + 1) { s1 with rhs := v } (hs.same hsame1)
        (by rw [hsame1.dir]; exact fun x hx => hf x (List.mem_cons_of_mem _ hx)) (by rw [hsame1.dir]; exact ha)
        (by rw [hsame1.fbs, he]; exact hr) (by rw [hsame1.fbs, he]; exact hrr) (by rw [hsame1.fbs]; exact hc)
      refine ⟨s', ?_, hsame1.trans h6, ?_, ?_⟩
      · simp only [bRows, vget, hd, Outcome.bind_ok, hb, Bool.false_eq_true, if_false, hcp, h1, hseg]
        have h9' : vsegAdd s1.rhs (unknownPos s.dir f * s1.fbs) ((rhs.drop (li * s.fbs)).take s.fbs) = .ok v := by
          rw [h2.fbs]; exact h9
        simp only [Outcome.bind_ok, h9', h5]
      · intro hir
        apply h7
        intro t ht
        have := h3 hir t ht
        rw [← h10] at this
        exact this
      · intro u g
        rw [h8 u g]
        have e1 : resid { s1 with rhs := v } u g = resid s1 u g -
            if unknownPos s.dir f * s.fbs ≤ g ∧ g < unknownPos s.dir f * s.fbs + s.fbs then
              rhs.getD (li * s.fbs + (g - unknownPos s.dir f * s.fbs)) 0 else 0 := by
          simp only [resid, h11 g, hseglen]
          by_cases hcd : unknownPos s.dir f * s.fbs ≤ g ∧ g < unknownPos s.dir f * s.fbs + s.fbs
          · rw [if_pos hcd, if_pos hcd]
            have : ((rhs.drop (li * s.fbs)).take s.fbs).getD (g - unknownPos s.dir f * s.fbs) 0 =
                rhs.getD (li * s.fbs + (g - unknownPos s.dir f * s.fbs)) 0 := by
              have : g - unknownPos s.dir f * s.fbs < s.fbs := by omega
              simp [List.getD, List.getElem?_take, this]
            rw [this]; ring
          · rw [if_neg hcd, if_neg hcd]; ring
        rw [e1, h4 u g]
        have e2 : rowTerm { s1 with rhs := v } lhs rhs all u g = rowTerm s lhs rhs all u g :=
          funext fun y => rowTerm_same s _ hsame1 lhs rhs all u g y
        have e3 : rowTerm s lhs rhs all u g (f, li) =
            ((all.zipIdx 0).map (colTerm s lhs li (unknownPos s.dir f) u g)).sum -
            if unknownPos s.dir f * s.fbs ≤ g ∧ g < unknownPos s.dir f * s.fbs + s.fbs then
              rhs.getD (li * s.fbs + (g - unknownPos s.dir f * s.fbs)) 0 else 0 := by
          simp only [rowTerm, hbf, if_true]
        rw [e2]
        simp only [List.zipIdx_cons, List.map_cons, List.sum_cons, e3]
        ring

theorem sum_zipIdx (l : List Nat) (k : Nat) (f : Nat × Nat → R) :
    ((l.zipIdx k).map f).sum = ∑ q ∈ Finset.range l.length, f (l.getD q 0, k + q) := by
  induction l generalizing k with
  | nil => simp
  | cons x xs ih =>
    rw [List.zipIdx_cons, List.map_cons, List.sum_cons, ih, List.length_cons, Finset.sum_range_succ']
    simp only [List.getD_cons_succ, List.getD_cons_zero, Nat.add_zero]
    rw [add_comm]
    congr 1
    apply Finset.sum_congr rfl
    intro q _
    congr 2
    omega

/-- The basic assembler adds the local residual with zero Dirichlet values. -/
theorem basicAssemble_spec (s : State R) (hs : Good s) (fcs : List Nat) (lhs : Mat R) (rhs : List R)
    (hf : ∀ f ∈ fcs, f < s.dir.length) (hr : lhs.rows = fcs.length * s.fbs) (hc : lhs.cols = fcs.length * s.fbs)
    (hb : rhs.length = fcs.length * s.fbs) :
    ∃ s', basicAssemble s fcs lhs rhs = .ok s' ∧ Same s s' ∧ (InRange s → InRange s') ∧
      ∀ u f k, s.dir[f]? = some false → k < s.fbs →
        resid s' u (unknownPos s.dir f * s.fbs + k) = resid s u (unknownPos s.dir f * s.fbs + k) +
          cellResidual s.fbs fcs lhs.entry rhs (faceValue s.dir s.fbs (fun _ _ => 0) u) f k := by
  obtain ⟨s', h1, h2, h3, h4⟩ := bRows_spec lhs rhs fcs fcs 0 s hs hf hf (by rw [hr]; simp) (by rw [hb]; simp)
    (by rw [hc])
  refine ⟨s', ?_, h2, h3, ?_⟩
  · unfold basicAssemble
    rw [if_pos ⟨by rw [hr]; ring, by rw [hc]; ring, by rw [hb]; ring⟩, h1]
  · intro u f k hfd hk
    rw [h4, sum_zipIdx]
    congr 1
    unfold cellResidual
    apply Finset.sum_congr rfl
    intro p hp
    rw [Finset.mem_range] at hp
    simp only [Nat.zero_add]
    have hmem : ∀ q, q < fcs.length → fcs.getD q 0 < s.dir.length := by
      intro q hq
      have : fcs.getD q 0 ∈ fcs := by rw [List.getD_eq_getElem?_getD, List.getElem?_eq_getElem hq]; simp
      exact hf _ this
    unfold rowTerm
    cases hd : s.dir[fcs.getD p 0]? with
    | none => rw [List.getElem?_eq_none_iff] at hd; have := hmem p hp; omega
    | some d =>
      cases d with
      | true =>
        rw [if_neg (by simp), if_neg]
        rintro rfl
        rw [hd] at hfd; simp at hfd
      | false =>
        rw [if_pos rfl]
        by_cases hpf : fcs.getD p 0 = f
        · have hin : unknownPos s.dir f * s.fbs ≤ unknownPos s.dir f * s.fbs + k ∧
              unknownPos s.dir f * s.fbs + k < unknownPos s.dir f * s.fbs + s.fbs := by omega
          rw [if_pos hpf, hpf, if_pos hin]
          unfold localResidual
          have : unknownPos s.dir f * s.fbs + k - unknownPos s.dir f * s.fbs = k := by omega
          rw [this, sum_zipIdx]
          congr 1
          apply Finset.sum_congr rfl
          intro q hq
          rw [Finset.mem_range] at hq
          simp only [Nat.zero_add]
          unfold colTerm
          cases hdq : s.dir[fcs.getD q 0]? with
          | none => rw [List.getElem?_eq_none_iff] at hdq; have := hmem q hq; omega
          | some d =>
            cases d with
            | true =>
              rw [if_neg (by simp)]
              symm
              apply Finset.sum_eq_zero
              intro l _
              unfold faceValue
              rw [if_pos hdq]; ring
            | false =>
              rw [if_pos rfl]
              have hite : ∀ i, (unknownPos s.dir f * s.fbs + k = unknownPos s.dir f * s.fbs + i) ↔ (k = i) := by
                intro i; omega
              simp only [hite]
              rw [Finset.sum_ite_eq (Finset.range s.fbs) k, if_pos (Finset.mem_range.2 hk)]
              apply Finset.sum_congr rfl
              intro l _
              unfold faceValue
              rw [if_neg (by rw [hdq]; simp)]
        · rw [if_neg hpf]
          have hne : unknownPos s.dir (fcs.getD p 0) ≠ unknownPos s.dir f :=
            fun h => hpf (unknownPos_inj s.dir _ _ hd hfd h)
          have hno : ∀ i, i < s.fbs → ¬ (unknownPos s.dir f * s.fbs + k = unknownPos s.dir (fcs.getD p 0) * s.fbs + i) := by
            intro i hi h
            exact hne (block_inj s.fbs _ _ _ _ hi hk h.symm).1
          rw [if_neg]
          · rw [sub_zero, sum_zipIdx]
            apply Finset.sum_eq_zero
            intro q _
            unfold colTerm
            split
            · apply Finset.sum_eq_zero
              intro i hi
              rw [if_neg (hno i (Finset.mem_range.1 hi))]
            · rfl
          · rintro ⟨ha, hb'⟩
            generalize unknownPos s.dir (fcs.getD p 0) * s.fbs = A at *
            generalize unknownPos s.dir f * s.fbs = B at *
            exact hno (B + k - A) (by omega) (by omega)

/-! ### Extraction of local data -/

/-- One face of the extraction. -/
theorem takeLocal_spec (s : State R) (hs : Good s) (proj : Nat → Nat → R) (sol : List R) (hsol : sol.length = s.systemSize)
    (fcs : List Nat) (hf : ∀ f ∈ fcs, f < s.dir.length) :
    ∃ v, takeLocal s proj sol fcs = .ok v ∧ v.length = fcs.length * s.fbs ∧
      ∀ q l, q < fcs.length → l < s.fbs → v.getD (q * s.fbs + l) 0 =
        faceValue s.dir s.fbs proj (fun j => sol.getD j 0) (fcs.getD q 0) l := by
  induction fcs with
  | nil => exact ⟨[], rfl, by simp, by simp⟩
  | cons f fs ih =>
    obtain ⟨v, h1, h2, h3⟩ := ih (fun x hx => hf x (List.mem_cons_of_mem _ hx))
    have hfl := hf f (by simp)
    have hd : s.dir[f]? = some s.dir[f] := by simp [hfl]
    have key : ∃ b : List R, (if s.dir[f] then Outcome.ok ((List.range s.fbs).map (proj f))
       else (vat s.compress f).bind fun c => vseg sol (c * s.fbs) s.fbs) = .ok b ∧ b.length = s.fbs ∧
       ∀ l, l < s.fbs → b.getD l 0 = faceValue s.dir s.fbs proj (fun j => sol.getD j 0) f l := by
      by_cases hb : s.dir[f] = true
      · refine ⟨_, by rw [if_pos hb], by simp, ?_⟩
        intro l hl
        simp [faceValue, hd, hb, List.getD, hl]
      · have hbf : s.dir[f]? = some false := by rw [hd]; simpa using hb
        have hcp := hs.cpos f hbf
        have hfit : unknownPos s.dir f * s.fbs + s.fbs ≤ sol.length := by
          rw [hsol, hs.size, Nat.mul_comm s.fbs, ← Nat.succ_mul]
          exact Nat.mul_le_mul_right _ (unknownPos_lt s.dir f hbf)
        refine ⟨(sol.drop (unknownPos s.dir f * s.fbs)).take s.fbs, ?_, by simp; omega, ?_⟩
        · rw [if_neg hb]
          simp only [vat, hcp, Outcome.bind_ok, vseg, if_pos hfit]
        · intro l hl
          simp [faceValue, hbf, List.getD, List.getElem?_take, hl]
    obtain ⟨b, hb1, hb2, hb3⟩ := key
    refine ⟨b ++ v, ?_, by simp [hb2, h2]; ring, ?_⟩
    · simp only [takeLocal, vat, hd, Outcome.bind_ok] at hb1 ⊢
      rw [hb1]
      simp only [Outcome.bind_ok, h1]
    · intro q l hq hl
      cases q with
      | zero =>
        simp only [Nat.zero_mul, Nat.zero_add, List.getD_cons_zero]
        rw [List.getD_append _ _ _ _ (by omega), hb3 l hl]
      | succ q =>
        have : (q + 1) * s.fbs + l = b.length + (q * s.fbs + l) := by rw [hb2]; ring
        rw [this, List.getD_append_right _ _ _ _ (by omega)]
        simp only [List.length_cons] at hq
        simpa using h3 q l (by omega) hl

theorem basicTakeLocal_eq (s : State R) (sol : List R) (fcs : List Nat) (hf : ∀ f ∈ fcs, f < s.dir.length) :
    basicTakeLocal s sol fcs = takeLocal s (fun _ _ => 0) sol fcs := by
  induction fcs with
  | nil => rfl
  | cons f fs ih =>
    have hfl := hf f (by simp)
    have hd : s.dir[f]? = some s.dir[f] := by simp [hfl]
    have hrep : List.replicate s.fbs (0 : R) = (List.range s.fbs).map (fun _ => (0 : R)) := by simp
    simp only [basicTakeLocal, takeLocal, vget, vat, hd, Outcome.bind_ok, hrep,
      ih (fun x hx => hf x (List.mem_cons_of_mem _ hx))]

/-! ### Discontinuous Galerkin -/

theorem toMat_append (a b : List (Nat × Nat × R)) (i j : Nat) : toMat (a ++ b) i j = toMat a i j + toMat b i j := by
  simp [toMat]

/-- The triplets of one block, as a matrix. -/
theorem dgBlock_toMat (cbs : Nat) (A : Mat R) (a b : Nat) (hr : cbs ≤ A.rows) (hc : cbs ≤ A.cols) :
    ∃ t, dgBlock cbs A a b = .ok t ∧ (∀ x ∈ t, cbs * a ≤ x.1 ∧ x.1 < cbs * (a + 1) ∧ cbs * b ≤ x.2.1 ∧ x.2.1 < cbs * (b + 1)) ∧
      ∀ i j, toMat t i j = if cbs * a ≤ i ∧ i < cbs * (a + 1) ∧ cbs * b ≤ j ∧ j < cbs * (b + 1) then
        A.entry (i - cbs * a) (j - cbs * b) else 0 := by
  refine ⟨_, by rw [dgBlock, if_pos ⟨hr, hc⟩], ?_, ?_⟩
  · intro x hx
    simp only [List.mem_flatMap, List.mem_map, List.mem_range] at hx
    obtain ⟨i, hi, j, hj, rfl⟩ := hx
    simp only [Nat.mul_add, Nat.mul_one]
    omega
  · intro i j
    have inner : ∀ (n p : Nat), toMat ((List.range n).map (fun q => (cbs * a + p, cbs * b + q, A.entry p q))) i j =
        if cbs * a + p = i ∧ cbs * b ≤ j ∧ j < cbs * b + n then A.entry p (j - cbs * b) else 0 := by
      intro n p
      induction n with
      | zero => simp [toMat]
      | succ n ih =>
        rw [List.range_succ, List.map_append, toMat_append, ih]
        simp only [List.map_cons, List.map_nil, toMat, List.filter_cons, List.filter_nil]
        by_cases h1 : cbs * a + p = i
        · by_cases h2 : cbs * b + n = j
          · subst h2
            simp [h1]
          · by_cases h3 : cbs * b ≤ j ∧ j < cbs * b + n
            · have : cbs * b ≤ j ∧ j < cbs * b + (n + 1) := by omega
              simp [h1, h2, h3, this]
            · have : ¬ (cbs * b ≤ j ∧ j < cbs * b + (n + 1)) := by omega
              simp [h1, h2, h3, this]
        · simp [h1]
    have outer : ∀ n : Nat, toMat ((List.range n).flatMap fun p => (List.range cbs).map fun q =>
        (cbs * a + p, cbs * b + q, A.entry p q)) i j =
        if cbs * a ≤ i ∧ i < cbs * a + n ∧ cbs * b ≤ j ∧ j < cbs * b + cbs then
          A.entry (i - cbs * a) (j - cbs * b) else 0 := by
      intro n
      induction n with
      | zero => simp [toMat]; intros; omega
      | succ n ih =>
        rw [List.range_succ, List.flatMap_append, toMat_append, ih]
        simp only [List.flatMap_cons, List.flatMap_nil, List.append_nil, inner]
        by_cases hj : cbs * b ≤ j ∧ j < cbs * b + cbs
        · by_cases h2 : cbs * a + n = i
          · subst h2
            simp [hj]
          · by_cases h3 : cbs * a ≤ i ∧ i < cbs * a + n
            · have : cbs * a ≤ i ∧ i < cbs * a + (n + 1) := by omega
              simp [h2, h3, this, hj]
            · have h4 : ¬ (cbs * a ≤ i ∧ i < cbs * a + (n + 1)) := by omega
              rw [if_neg (by tauto), if_neg (by tauto), if_neg (by tauto), add_zero]
        · rw [if_neg (by tauto), if_neg (by tauto), if_neg (by tauto), add_zero]
    have := outer cbs
    rw [this]
    simp only [Nat.mul_add, Nat.mul_one]

theorem div_iff_range (c a i : Nat) (hc : 0 < c) : i / c = a ↔ (c * a ≤ i ∧ i < c * (a + 1)) := by
  rw [Nat.div_eq_iff hc, Nat.mul_comm c a, Nat.mul_comm c (a + 1), Nat.succ_mul]
  omega

theorem mod_of_range (c a i : Nat) (h : c * a ≤ i) (h' : i < c * (a + 1)) : i % c = i - c * a := by
  have : i = c * a + (i - c * a) := by omega
  rw [this, Nat.mul_add_mod, Nat.mod_eq_of_lt]
  · omega
  · rw [Nat.mul_add] at h'; omega

/-- The matrix a call adds. -/
def callMat (cbs : Nat) : DGCall R → Nat → Nat → R
  | .couple a b A => blockEntry cbs a b A.entry
  | .cell a A _ => blockEntry cbs a a A.entry
  | .finalize => fun _ _ => 0

/-- The vector a call adds. -/
def callVec (cbs : Nat) : DGCall R → Nat → R
  | .cell a _ r => blockVec cbs a (fun k => r.getD k 0)
  | _ => fun _ => 0

/-- Calls whose arguments have the sizes the code expects. -/
def CallOk (cbs n : Nat) : DGCall R → Prop
  | .couple a b A => a < n ∧ b < n ∧ A.rows = cbs ∧ A.cols = cbs
  | .cell a A r => a < n ∧ A.rows = cbs ∧ A.cols = cbs ∧ r.length = cbs
  | .finalize => True

theorem dgBlock_block (cbs : Nat) (A : Mat R) (a b : Nat) (hr : A.rows = cbs) (hc : A.cols = cbs) (h0 : 0 < cbs) :
    ∃ t, dgBlock cbs A a b = .ok t ∧ ∀ i j, toMat t i j = blockEntry cbs a b A.entry i j := by
  obtain ⟨t, h1, _, h2⟩ := dgBlock_toMat cbs A a b (by omega) (by omega)
  refine ⟨t, h1, ?_⟩
  intro i j
  rw [h2]
  unfold blockEntry
  simp only [div_iff_range cbs a i h0, div_iff_range cbs b j h0]
  by_cases h : cbs * a ≤ i ∧ i < cbs * (a + 1) ∧ cbs * b ≤ j ∧ j < cbs * (b + 1)
  · rw [if_pos h, if_pos ⟨⟨h.1, h.2.1⟩, h.2.2⟩, mod_of_range cbs a i h.1 h.2.1, mod_of_range cbs b j h.2.2.1 h.2.2.2]
  · rw [if_neg h, if_neg (by tauto)]

/-- One call. -/
theorem exec_spec (s : DG R) (c : DGCall R) (h0 : 0 < s.cbs) (hl : s.rhs.length = s.cbs * s.ncells)
    (hc : CallOk s.cbs s.ncells c) :
    ∃ s', s.exec c = .ok s' ∧ s'.cbs = s.cbs ∧ s'.ncells = s.ncells ∧ s'.rhs.length = s.rhs.length ∧
      (∀ i, s'.rhs.getD i 0 = s.rhs.getD i 0 + callVec s.cbs c i) ∧
      (c ≠ .finalize → s'.lhs = s.lhs ∧ ∀ i j, toMat s'.triplets i j = toMat s.triplets i j + callMat s.cbs c i j) ∧
      (c = .finalize → s'.triplets = [] ∧ s'.lhs = toMat s.triplets) := by
  cases c with
  | couple a b A =>
    obtain ⟨_, _, hr, hcc⟩ := hc
    obtain ⟨t, h1, h2⟩ := dgBlock_block s.cbs A a b hr hcc h0
    refine ⟨{ s with triplets := s.triplets ++ t }, by simp only [DG.exec, h1, Outcome.bind_ok], rfl, rfl, rfl, ?_, ?_, ?_⟩
    · intro i; simp [callVec]
    · intro _; exact ⟨rfl, fun i j => by rw [toMat_append, h2]; rfl⟩
    · intro h; cases h
  | cell a A r =>
    obtain ⟨ha, hr, hcc, hrl⟩ := hc
    obtain ⟨t, h1, h2⟩ := dgBlock_block s.cbs A a a hr hcc h0
    have hfit : s.cbs * a + r.length ≤ s.rhs.length := by
      rw [hl, hrl]
      calc s.cbs * a + s.cbs = s.cbs * (a + 1) := by ring
        _ ≤ s.cbs * s.ncells := Nat.mul_le_mul_left _ ha
    obtain ⟨v, h3, h4, h5⟩ := vsegAdd_spec r s.rhs (s.cbs * a) hfit
    refine ⟨{ s with triplets := s.triplets ++ t, rhs := v },
      by simp only [DG.exec, h1, Outcome.bind_ok, hrl, if_true, h3], rfl, rfl, h4, ?_, ?_, ?_⟩
    · intro i
      simp only [h5 i, callVec, blockVec]
      simp only [div_iff_range s.cbs a i h0, hrl]
      congr 1
      have e : s.cbs * (a + 1) = s.cbs * a + s.cbs := by ring
      rw [e]
      split
      · rename_i h
        rw [mod_of_range s.cbs a i h.1 (by rw [e]; exact h.2)]
      · rfl
    · intro _; exact ⟨rfl, fun i j => by rw [toMat_append, h2]; rfl⟩
    · intro h; cases h
  | finalize =>
    exact ⟨_, rfl, rfl, rfl, rfl, by intro i; simp [callVec], by intro h; exact absurd rfl h, fun _ => ⟨rfl, rfl⟩⟩

/-- A history without `finalize`. -/
theorem run_spec (cs : List (DGCall R)) (s : DG R) (h0 : 0 < s.cbs) (hl : s.rhs.length = s.cbs * s.ncells)
    (hc : ∀ c ∈ cs, CallOk s.cbs s.ncells c) :
    ∃ s', DG.run s cs = .ok s' ∧ s'.cbs = s.cbs ∧ s'.ncells = s.ncells ∧ s'.rhs.length = s.rhs.length ∧
      (∀ i, s'.rhs.getD i 0 = s.rhs.getD i 0 + (cs.map (fun c => callVec s.cbs c i)).sum) ∧
      ((∀ c ∈ cs, c ≠ .finalize) → s'.lhs = s.lhs ∧
        ∀ i j, toMat s'.triplets i j = toMat s.triplets i j + (cs.map (fun c => callMat s.cbs c i j)).sum) := by
  induction cs generalizing s with
  | nil => exact ⟨s, rfl, rfl, rfl, rfl, by simp, by simp⟩
  | cons c cs ih =>
    obtain ⟨s1, h1, h2, h3, h4, h5, h6, _⟩ := exec_spec s c h0 hl (hc c (by simp))
    obtain ⟨s', k1, k2, k3, k4, k5, k6⟩ := ih s1 (by rw [h2]; exact h0) (by rw [h4, h2, h3]; exact hl)
      (by rw [h2, h3]; exact fun x hx => hc x (List.mem_cons_of_mem _ hx))
    refine ⟨s', by simp only [DG.run, h1, Outcome.bind_ok, k1], k2.trans h2, k3.trans h3, k4.trans h4, ?_, ?_⟩
    · intro i
      rw [k5 i, h5 i, h2]
      simp only [List.map_cons, List.sum_cons]; ring
    · intro hn
      obtain ⟨l1, m1⟩ := h6 (hn c (by simp))
      obtain ⟨l2, m2⟩ := k6 (fun x hx => hn x (List.mem_cons_of_mem _ hx))
      refine ⟨l2.trans l1, ?_⟩
      intro i j
      rw [m2, m1, h2]
      simp only [List.map_cons, List.sum_cons]; ring

theorem run_append (a b : List (DGCall R)) (s : DG R) : DG.run s (a ++ b) = (DG.run s a).bind fun s => DG.run s b := by
  induction a generalizing s with
  | nil => rfl
  | cons c cs ih =>
    simp only [List.cons_append, DG.run]
    cases s.exec c with
    | ok x => simp only [Outcome.bind_ok, ih]
    | throws _ => rfl
    | ub _ => rfl

end

end Verif.Assembly
