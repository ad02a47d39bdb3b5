import Verif.Lemmas.AssemblyBasic
/-!
Properties C21, C22, C23, C25, C26, C59.
-/
namespace Verif.Props.Assembly
open Verif.Assembly Verif.Spec

variable {R : Type} [CommRing R]

/-- C21. The two tables are mutually inverse between the unknown faces and `0 .. n-1`, in order, and the
system has `n` blocks. -/
theorem c21_numbering_partial (dir : List Bool) (b : Nat) :
    ∃ s : State R, construct dir b = .ok s ∧
      s.systemSize = b * dir.count false ∧ s.rhs.length = s.systemSize ∧
      s.expand.length = dir.count false ∧ s.expand.Pairwise (· < ·) ∧
      (∀ f : Nat, dir[f]? = some false → ∃ p : Nat, s.compress[f]? = some p ∧ s.expand[p]? = some f) ∧
      (∀ p f : Nat, s.expand[p]? = some f → dir[f]? = some false ∧ s.compress[f]? = some p) := by
  obtain ⟨s, h1, rfl, rfl, hg, _, _, _⟩ := construct_spec (R := R) dir b
  have hnd : (unknownFaces s.dir).Pairwise (· < ·) := List.pairwise_lt_range.filter _
  refine ⟨s, h1, hg.size, hg.rlen, ?_, by rw [hg.exp]; exact hnd, ?_, ?_⟩
  · rw [hg.exp, ← unkFrom_zero, unkFrom_length]
  · intro f hf
    exact ⟨_, hg.cpos f hf, by rw [hg.exp]; exact unknownFaces_pos s.dir f hf⟩
  · intro p f hp
    rw [hg.exp] at hp
    have hmem : f ∈ unknownFaces s.dir := List.mem_of_getElem? hp
    have hf : s.dir[f]? = some false := by
      simp only [unknownFaces, List.mem_filter, decide_eq_true_eq] at hmem
      exact hmem.2
    refine ⟨hf, ?_⟩
    have h2 := unknownFaces_pos s.dir f hf
    have : unknownPos s.dir f = p :=
      (List.getElem?_inj (List.getElem?_eq_some_iff.1 h2).1 (hnd.imp (fun h => Nat.ne_of_lt h))).1 (h2.trans hp.symm)
    rw [hg.cpos f hf, this]

example : ∃ s : State Int, construct [true, false, false, true, false] 3 = .ok s ∧ s.systemSize = 9 ∧
    s.expand = [1, 2, 4] ∧ s.compress[4]? = some 2 := ⟨_, rfl, by decide, by decide, by decide⟩

/-- C21. The ranges of unknowns of distinct unknown faces are disjoint and cover the system: every unknown
belongs to exactly one coefficient of exactly one unknown face. -/
theorem c21_ranges_partial (dir : List Bool) (b : Nat) :
    ∃ s : State R, construct dir b = .ok s ∧
      (∀ g, g < s.systemSize ↔ ∃ f p k : Nat, dir[f]? = some false ∧ s.compress[f]? = some p ∧ k < b ∧ g = p * b + k) ∧
      (∀ f f' p p' k k' : Nat, dir[f]? = some false → dir[f']? = some false → s.compress[f]? = some p →
        s.compress[f']? = some p' → k < b → k' < b → p * b + k = p' * b + k' → f = f' ∧ k = k') := by
  obtain ⟨s, h1, hsz, _, hlen, _, h2, h3⟩ := c21_numbering_partial (R := R) dir b
  refine ⟨s, h1, ?_, ?_⟩
  · intro g
    rw [hsz]
    constructor
    · intro hg
      have hb : 0 < b := Nat.pos_of_ne_zero (by rintro rfl; simp at hg)
      have hq : g / b < s.expand.length := by
        rw [hlen]; exact Nat.div_lt_of_lt_mul hg
      obtain ⟨hf, hc⟩ := h3 (g / b) s.expand[g / b] (by simp [hq])
      exact ⟨_, _, g % b, hf, hc, Nat.mod_lt _ hb, by rw [Nat.mul_comm]; exact (Nat.div_add_mod g b).symm⟩
    · rintro ⟨f, p, k, hf, hc, hk, rfl⟩
      obtain ⟨q, hq, he⟩ := h2 f hf
      rw [hc] at hq
      cases hq
      have : p < dir.count false := by rw [← hlen]; exact (List.getElem?_eq_some_iff.1 he).1
      calc p * b + k < p * b + b := by omega
        _ = (p + 1) * b := by ring
        _ ≤ dir.count false * b := Nat.mul_le_mul_right _ this
        _ = b * dir.count false := Nat.mul_comm _ _
  · intro f f' p p' k k' hf hf' hp hp' hk hk' he
    obtain ⟨e1, e2⟩ := block_inj b p k p' k' hk hk' he
    subst e1
    obtain ⟨q, hq, he⟩ := h2 f hf
    obtain ⟨q', hq', he'⟩ := h2 f' hf'
    rw [hp] at hq; cases hq
    rw [hp'] at hq'; cases hq'
    rw [he] at he'
    exact ⟨Option.some.inj he', e2⟩

/-- C21. Both constructors of the basic assembler agree with it when the vector has one flag per face. -/
theorem c21_basic_partial (bnd dir : List Bool) (b : Nat) (h : dir.length = bnd.length) :
    basicConstructWith (R := R) bnd b dir = construct dir b ∧ basicConstruct (R := R) bnd b = construct bnd b := by
  refine ⟨?_, rfl⟩
  unfold basicConstructWith construct
  by_cases h0 : dir.length = 0
  · have hd : dir = [] := List.length_eq_zero_iff.1 h0
    have hb : bnd = [] := List.length_eq_zero_iff.1 (by omega)
    subst hd; subst hb
    rfl
  · have h1 : ¬ (dir.length ≠ 0 ∧ dir.length < bnd.length) := by omega
    have h2 : dir.take bnd.length = dir := by rw [← h, List.take_length]
    rw [if_neg h1, if_neg h0, h2, h]

example : ([true, false] : List Bool).length = ([true, true] : List Bool).length := rfl

/-- C21 fails for the constructor of the basic assembler that takes a vector when that vector is empty:
the boundary faces of the mesh are then eliminated, but still counted as unknown, so the system has
rows that belong to no face. -/
theorem c21_empty_vector_violation :
    ∃ s : State Int, basicConstructWith [true, false] 1 [] = .ok s ∧ s.systemSize = 2 ∧
      s.compress[1]? = some 0 ∧ s.expand = [1, 0] ∧
      basicAssemble s [0, 1] ⟨2, 2, fun _ _ => 1⟩ [1, 1] = .ub "vector index out of range" := by
  refine ⟨_, rfl, by decide, by decide, by decide, ?_⟩
  rfl

/-! ### C22 -/

/-- C22. Residual of the assembled system at an unknown = sum of the residuals of the cells. -/
theorem c22_residual (dir : List Bool) (b : Nat) (proj : Nat → Nat → R) (cells : List (Cell R))
    (hcell : ∀ c ∈ cells, (∀ f ∈ c.fcs, f < dir.length) ∧ c.lhs.rows = c.fcs.length * b ∧
      c.lhs.cols = c.fcs.length * b ∧ c.rhs.length = c.fcs.length * b) :
    ∃ s s' : State R, construct dir b = .ok s ∧ assembleAll proj cells s = .ok s' ∧
      s'.systemSize = b * dir.count false ∧ s'.rhs.length = s'.systemSize ∧
      (∀ t ∈ s'.triplets, t.1 < s'.systemSize ∧ t.2.1 < s'.systemSize) ∧
      ∀ u f k, dir[f]? = some false → k < b →
        (∑ j ∈ Finset.range s'.systemSize, toMat s'.triplets (unknownPos dir f * b + k) j * u j) -
            s'.rhs.getD (unknownPos dir f * b + k) 0 =
          (cells.map (fun c => cellResidual b c.fcs c.lhs.entry c.rhs (faceValue dir b proj u) f k)).sum := by
  obtain ⟨s, h1, rfl, rfl, hg, hir, ht, hr⟩ := construct_spec (R := R) dir b
  obtain ⟨s', h2, h3, h4, h5⟩ := assembleAll_spec proj cells s hg hcell
  have hg' := hg.same h3
  have hir' := h4 hir
  refine ⟨s, s', h1, h2, by rw [h3.size]; exact hg.size, hg'.rlen, ?_, ?_⟩
  · intro t ht
    have := hir' t ht
    rwa [hg'.rlen] at this
  · intro u f k hf hk
    rw [toMat_apply s'.triplets s'.systemSize (fun x hx => by rw [← hg'.rlen]; exact (hir' x hx).2) u]
    have := h5 u f k hf hk
    unfold resid at this
    rw [this, ht, hr]
    simp [rowSum]

example : ∃ c : Cell Int, (∀ f ∈ c.fcs, f < [true, false, false].length) ∧ c.lhs.rows = c.fcs.length * 1 ∧
      c.lhs.cols = c.fcs.length * 1 ∧ c.rhs.length = c.fcs.length * 1 :=
  ⟨⟨[0, 2], ⟨2, 2, fun i j => i + 2 * j⟩, [5, 7]⟩, by decide, rfl, rfl, rfl⟩

/-- C22. The assembled system holds at `u` exactly when the un-eliminated residual vanishes at every
unknown of every unknown face. -/
theorem c22_equivalence (dir : List Bool) (b : Nat) (proj : Nat → Nat → R) (cells : List (Cell R))
    (hcell : ∀ c ∈ cells, (∀ f ∈ c.fcs, f < dir.length) ∧ c.lhs.rows = c.fcs.length * b ∧
      c.lhs.cols = c.fcs.length * b ∧ c.rhs.length = c.fcs.length * b) :
    ∃ s s' : State R, construct dir b = .ok s ∧ assembleAll proj cells s = .ok s' ∧
      ∀ u : Nat → R,
        (∀ g < s'.systemSize, ∑ j ∈ Finset.range s'.systemSize, toMat s'.triplets g j * u j = s'.rhs.getD g 0) ↔
        (∀ f k, dir[f]? = some false → k < b →
          (cells.map (fun c => cellResidual b c.fcs c.lhs.entry c.rhs (faceValue dir b proj u) f k)).sum = 0) := by
  obtain ⟨s, s', h1, h2, h3, _, _, h5⟩ := c22_residual dir b proj cells hcell
  obtain ⟨t, k1, k2, _⟩ := c21_ranges_partial (R := R) dir b
  obtain ⟨t', l1, rfl, rfl, hg, _⟩ := construct_spec (R := R) dir b
  rw [h1] at k1 l1
  cases k1; cases l1
  refine ⟨s, s', h1, h2, ?_⟩
  intro u
  have hsz : s'.systemSize = s.systemSize := by rw [h3, hg.size]
  constructor
  · intro h f k hf hk
    rw [← h5 u f k hf hk, sub_eq_zero]
    apply h
    rw [hsz, k2]
    exact ⟨f, _, k, hf, hg.cpos f hf, hk, rfl⟩
  · intro h g hgs
    rw [hsz, k2] at hgs
    obtain ⟨f, p, k, hf, hp, hk, rfl⟩ := hgs
    rw [hg.cpos f hf] at hp
    cases hp
    rw [← sub_eq_zero, h5 u f k hf hk]
    exact h f k hf hk

/-! ### C59: the basic assembler imposes homogeneous values -/

/-- Assembling several cells with the basic assembler. -/
def basicAssembleAll : List (Cell R) → State R → Outcome (State R)
  | [], s => .ok s
  | c :: cs, s => (basicAssemble s c.fcs c.lhs c.rhs).bind fun s => basicAssembleAll cs s

/-- C59. The basic assembler's residual is the un-eliminated one with zero on the Dirichlet faces. -/
theorem c59_basic_residual (bnd dir : List Bool) (b : Nat) (cells : List (Cell R)) (hl : dir.length = bnd.length)
    (hcell : ∀ c ∈ cells, (∀ f ∈ c.fcs, f < dir.length) ∧ c.lhs.rows = c.fcs.length * b ∧
      c.lhs.cols = c.fcs.length * b ∧ c.rhs.length = c.fcs.length * b) :
    ∃ s s' : State R, basicConstructWith bnd b dir = .ok s ∧ basicAssembleAll cells s = .ok s' ∧
      s'.systemSize = b * dir.count false ∧
      (∀ t ∈ s'.triplets, t.1 < s'.systemSize ∧ t.2.1 < s'.systemSize) ∧
      ∀ u f k, dir[f]? = some false → k < b →
        (∑ j ∈ Finset.range s'.systemSize, toMat s'.triplets (unknownPos dir f * b + k) j * u j) -
            s'.rhs.getD (unknownPos dir f * b + k) 0 =
          (cells.map (fun c => cellResidual b c.fcs c.lhs.entry c.rhs (faceValue dir b (fun _ _ => 0) u) f k)).sum := by
  obtain ⟨s, h1, rfl, rfl, hg, hir, ht, hr⟩ := construct_spec (R := R) dir b
  have key : ∀ (cells : List (Cell R)) (s : State R), Good s → (∀ c ∈ cells, (∀ f ∈ c.fcs, f < s.dir.length) ∧
      c.lhs.rows = c.fcs.length * s.fbs ∧ c.lhs.cols = c.fcs.length * s.fbs ∧ c.rhs.length = c.fcs.length * s.fbs) →
      ∃ s', basicAssembleAll cells s = .ok s' ∧ Same s s' ∧ (InRange s → InRange s') ∧
      ∀ u f k, s.dir[f]? = some false → k < s.fbs →
        resid s' u (unknownPos s.dir f * s.fbs + k) = resid s u (unknownPos s.dir f * s.fbs + k) +
        (cells.map (fun c => cellResidual s.fbs c.fcs c.lhs.entry c.rhs
          (faceValue s.dir s.fbs (fun _ _ => 0) u) f k)).sum := by
    intro cells
    induction cells with
    | nil => intro s _ _; exact ⟨s, rfl, .refl s, id, by simp⟩
    | cons c cs ih =>
      intro s hs hc
      obtain ⟨c1, c2, c3, c4⟩ := hc c (by simp)
      obtain ⟨s1, h1, h2, h3, h4⟩ := basicAssemble_spec s hs c.fcs c.lhs c.rhs c1 c2 c3 c4
      obtain ⟨s', k1, k2, k3, k4⟩ := ih s1 (hs.same h2) (by
        rw [h2.dir, h2.fbs]; exact fun x hx => hc x (List.mem_cons_of_mem _ hx))
      refine ⟨s', by simp only [basicAssembleAll, h1, Outcome.bind_ok, k1], h2.trans k2, fun h => k3 (h3 h), ?_⟩
      intro u f k hf hk
      rw [h2.dir, h2.fbs] at k4
      rw [k4 u f k hf hk, h4 u f k hf hk, List.map_cons, List.sum_cons]
      ring
  obtain ⟨s', h2, h3, h4, h5⟩ := key cells s hg hcell
  have hg' := hg.same h3
  have hir' := h4 hir
  refine ⟨s, s', by rw [(c21_basic_partial bnd s.dir s.fbs hl).1]; exact h1, h2, by rw [h3.size]; exact hg.size, ?_, ?_⟩
  · intro t ht
    have := hir' t ht
    rwa [hg'.rlen] at this
  · intro u f k hf hk
    rw [toMat_apply s'.triplets s'.systemSize (fun x hx => by rw [← hg'.rlen]; exact (hir' x hx).2) u]
    have := h5 u f k hf hk
    unfold resid at this
    rw [this, ht, hr]
    simp [rowSum]

example : ∃ c : Cell Int, (∀ f ∈ c.fcs, f < [true, false, false].length) ∧ c.lhs.rows = c.fcs.length * 2 ∧
      c.lhs.cols = c.fcs.length * 2 ∧ c.rhs.length = c.fcs.length * 2 :=
  ⟨⟨[0, 2], ⟨4, 4, fun i j => i + 2 * j⟩, [5, 7, 1, 1]⟩, by decide, rfl, rfl, rfl⟩

/-! ### C23 -/

/-- C23. Extraction returns the prescribed values on Dirichlet faces and the slice of the solution on the
others, and never fails. -/
theorem c23_take_local (dir : List Bool) (b : Nat) (proj : Nat → Nat → R) (sol : List R)
    (hsol : sol.length = b * dir.count false) (fcs : List Nat) (hf : ∀ f ∈ fcs, f < dir.length) :
    ∃ (s : State R) (v : List R), construct dir b = .ok s ∧ takeLocal s proj sol fcs = .ok v ∧
      v.length = fcs.length * b ∧
      ∀ q l, q < fcs.length → l < b →
        (dir[fcs.getD q 0]? = some true → v.getD (q * b + l) 0 = proj (fcs.getD q 0) l) ∧
        (dir[fcs.getD q 0]? = some false → ∃ p, s.compress[fcs.getD q 0]? = some p ∧ p * b + l < sol.length ∧
          v.getD (q * b + l) 0 = sol.getD (p * b + l) 0) := by
  obtain ⟨s, h1, rfl, rfl, hg, _⟩ := construct_spec (R := R) dir b
  obtain ⟨v, h2, h3, h4⟩ := takeLocal_spec s hg proj sol (by rw [hg.size]; exact hsol) fcs hf
  refine ⟨s, v, h1, h2, h3, ?_⟩
  intro q l hq hl
  constructor
  · intro hd
    rw [h4 q l hq hl, faceValue, if_pos hd]
  · intro hd
    refine ⟨_, hg.cpos _ hd, ?_, ?_⟩
    · have := pos_range s hg _ hd l hl
      rw [hg.rlen, hg.size, ← hsol] at this
      exact this
    · rw [h4 q l hq hl, faceValue, if_neg (by rw [hd]; simp)]

example : (takeLocal (⟨[true, false, false], 2, [0, 0, 1], [1, 2], 4, [], [0, 0, 0, 0]⟩ : State Int)
    (fun f l => (10 * f + l : Int)) [1, 2, 3, 4] [0, 2]) = .ok [0, 1, 3, 4] := rfl

/-- C23. The basic assembler's extraction returns zeros on Dirichlet faces. -/
theorem c23_basic_take_local (bnd dir : List Bool) (b : Nat) (sol : List R) (hl : dir.length = bnd.length)
    (hsol : sol.length = b * dir.count false) (fcs : List Nat) (hf : ∀ f ∈ fcs, f < dir.length) :
    ∃ (s : State R) (v : List R), basicConstructWith bnd b dir = .ok s ∧ basicTakeLocal s sol fcs = .ok v ∧
      v.length = fcs.length * b ∧
      ∀ q l, q < fcs.length → l < b →
        (dir[fcs.getD q 0]? = some true → v.getD (q * b + l) 0 = 0) ∧
        (dir[fcs.getD q 0]? = some false → ∃ p, s.compress[fcs.getD q 0]? = some p ∧ p * b + l < sol.length ∧
          v.getD (q * b + l) 0 = sol.getD (p * b + l) 0) := by
  obtain ⟨s, v, h1, h2, h3⟩ := c23_take_local dir b (fun _ _ => 0) sol hsol fcs hf
  obtain ⟨s', k1, k2, _⟩ := construct_spec (R := R) dir b
  rw [h1] at k1
  cases k1
  refine ⟨s, v, by rw [(c21_basic_partial bnd dir b hl).1]; exact h1, ?_, h3⟩
  rw [basicTakeLocal_eq s sol fcs (by rw [k2]; exact hf)]
  exact h2

example : ([1, 2, 3, 4] : List Int).length = 2 * [true, false, false].count false := by decide

/-! ### C25 -/

/-- C25. Row ranges of distinct cells are disjoint and cover the system. -/
theorem c25_ranges (cbs n : Nat) :
    (∀ g, g < cbs * n ↔ ∃ a k, a < n ∧ k < cbs ∧ g = cbs * a + k) ∧
    (∀ a a' k k', k < cbs → k' < cbs → cbs * a + k = cbs * a' + k' → a = a' ∧ k = k') := by
  constructor
  · intro g
    constructor
    · intro h
      have hb : 0 < cbs := Nat.pos_of_ne_zero (by rintro rfl; simp at h)
      exact ⟨g / cbs, g % cbs, Nat.div_lt_of_lt_mul h, Nat.mod_lt _ hb, (Nat.div_add_mod g cbs).symm⟩
    · rintro ⟨a, k, ha, hk, rfl⟩
      calc cbs * a + k < cbs * a + cbs := by omega
        _ = cbs * (a + 1) := by ring
        _ ≤ cbs * n := Nat.mul_le_mul_left _ ha
  · intro a a' k k' hk hk' h
    rw [Nat.mul_comm cbs a, Nat.mul_comm cbs a'] at h
    exact block_inj cbs a k a' k' hk hk' h

/-- C25. The entry `(i, j)` of the coupling of cells `a` and `b` is placed at row `cbs·a + i`, column
`cbs·b + j`. -/
theorem c25_placement (cbs n a b : Nat) (A : Mat R) (hr : A.rows = cbs) (hc : A.cols = cbs) :
    ∃ s, (DG.init cbs n).exec (.couple a b A) = .ok s ∧
      (∀ i j, i < cbs → j < cbs → (cbs * a + i, cbs * b + j, A.entry i j) ∈ s.triplets) ∧
      (∀ t ∈ s.triplets, ∃ i j, i < cbs ∧ j < cbs ∧ t = (cbs * a + i, cbs * b + j, A.entry i j)) := by
  refine ⟨_, by simp only [DG.exec, dgBlock, DG.init, hr, hc, le_refl, and_self, if_true, Outcome.bind_ok]; rfl, ?_, ?_⟩
  · intro i j hi hj
    simp only [List.nil_append, List.mem_flatMap, List.mem_map, List.mem_range]
    exact ⟨i, hi, j, hj, rfl⟩
  · intro t ht
    simp only [List.nil_append, List.mem_flatMap, List.mem_map, List.mem_range] at ht
    obtain ⟨i, hi, j, hj, rfl⟩ := ht
    exact ⟨i, j, hi, hj, rfl⟩

/-- C25. After `finalize`, the matrix is the sum of the contributions assembled since the previous
`finalize`, and the right-hand side the sum of all contributions. -/
theorem c25_sum (cbs n : Nat) (h0 : 0 < cbs) (pre cs : List (DGCall R))
    (hpre : pre = [] ∨ ∃ p, pre = p ++ [.finalize])
    (hok : ∀ c ∈ pre ++ cs, CallOk cbs n c) (hn : ∀ c ∈ cs, c ≠ .finalize) :
    ∃ s, DG.run (DG.init cbs n) (pre ++ cs ++ [.finalize]) = .ok s ∧
      (∀ i j, s.lhs i j = (cs.map (fun c => callMat cbs c i j)).sum) ∧
      (∀ i, s.rhs.getD i 0 = ((pre ++ cs).map (fun c => callVec cbs c i)).sum) ∧
      s.rhs.length = cbs * n := by
  have init0 : ∀ i, (DG.init (R := R) cbs n).rhs.getD i 0 = 0 := by
    intro i; simp [DG.init]
  have hlen : (DG.init (R := R) cbs n).rhs.length = cbs * n := by simp [DG.init]
  have hmid : ∃ s1, DG.run (DG.init (R := R) cbs n) pre = .ok s1 ∧ s1.cbs = cbs ∧ s1.ncells = n ∧ s1.rhs.length = cbs * n ∧
      s1.triplets = [] ∧ (∀ i, s1.rhs.getD i 0 = (pre.map (fun c => callVec cbs c i)).sum) := by
    rcases hpre with rfl | ⟨p, rfl⟩
    · exact ⟨_, rfl, rfl, rfl, hlen, rfl, by simpa using init0⟩
    · obtain ⟨s1, h1, h2, h3, h4, h5, _⟩ := run_spec p (DG.init (R := R) cbs n) h0 hlen
        (fun c hc => hok c (by simp [hc]))
      refine ⟨{ s1 with lhs := toMat s1.triplets, triplets := [] }, ?_, h2, h3, h4.trans hlen, rfl, ?_⟩
      · rw [run_append, h1]; rfl
      · intro i
        rw [h5 i, init0 i]
        simp [callVec, DG.init]
  obtain ⟨s1, h1, h2, h3, h4, h5, h6⟩ := hmid
  obtain ⟨s2, k1, k2, k3, k4, k5, k6⟩ := run_spec cs s1 (by rw [h2]; exact h0) (by rw [h4, h2, h3])
    (by rw [h2, h3]; exact fun c hc => hok c (List.mem_append_right _ hc))
  refine ⟨{ s2 with lhs := toMat s2.triplets, triplets := [] }, ?_, ?_, ?_, k4.trans h4⟩
  · rw [run_append, run_append, h1]
    simp only [Outcome.bind_ok, k1]
    rfl
  · intro i j
    have := (k6 hn).2 i j
    rw [h5, h2] at this
    simpa [toMat] using this
  · intro i
    show s2.rhs.getD i 0 = _
    rw [k5 i, h6 i, h2, List.map_append, List.sum_append]

example : CallOk 2 3 (.cell 1 ⟨2, 2, fun _ _ => (1 : Int)⟩ [1, 2]) ∧
    CallOk 2 3 (.couple 0 1 ⟨2, 2, fun _ _ => (1 : Int)⟩) := by simp [CallOk]

/-- C25. Different cells never write to the same row: the contribution of cell `a` is zero on the rows of
any other cell. -/
theorem c25_disjoint (cbs a b a' : Nat) (A : Nat → Nat → R) (hne : a ≠ a') (k j : Nat) (hk : k < cbs) :
    blockEntry cbs a b A (cbs * a' + k) j = 0 := by
  have : (cbs * a' + k) / cbs = a' := by
    rw [Nat.mul_add_div (by omega), Nat.div_eq_of_lt hk]; rfl
  unfold blockEntry
  rw [if_neg]
  rintro ⟨h, _⟩
  exact hne (h.symm.trans this)

example : (0 : Nat) ≠ 1 ∧ 1 < 2 := by decide

/-- C26. The conversion succeeds exactly on assembled indices, and then returns the index; otherwise it
throws. -/
theorem c26_assembly_index (a : AsmIdx) :
    (a.toIdx = .ok a.idx ↔ a.assem = true) ∧ (a.assem = false → a.toIdx.Throws) ∧ (∀ i, a.toIdx = .ok i → i = a.idx) := by
  obtain ⟨i, b⟩ := a
  cases b <;> simp [AsmIdx.toIdx, Outcome.Throws]

example : (AsmIdx.toIdx ⟨3, true⟩) = .ok 3 ∧ (AsmIdx.toIdx ⟨3, false⟩).Throws := by
  refine ⟨rfl, by decide⟩

/-- C26. In an assembled system, a row or column that belongs to no unknown face is never referenced. -/
theorem c26_no_eliminated (dir : List Bool) (b : Nat) (proj : Nat → Nat → R) (cells : List (Cell R))
    (hcell : ∀ c ∈ cells, (∀ f ∈ c.fcs, f < dir.length) ∧ c.lhs.rows = c.fcs.length * b ∧
      c.lhs.cols = c.fcs.length * b ∧ c.rhs.length = c.fcs.length * b) :
    ∃ s s' : State R, construct dir b = .ok s ∧ assembleAll proj cells s = .ok s' ∧
      ∀ t ∈ s'.triplets,
        (∃ f p k : Nat, dir[f]? = some false ∧ s.compress[f]? = some p ∧ k < b ∧ t.1 = p * b + k) ∧
        (∃ f p k : Nat, dir[f]? = some false ∧ s.compress[f]? = some p ∧ k < b ∧ t.2.1 = p * b + k) := by
  obtain ⟨s, s', h1, h2, h3, _, h5, _⟩ := c22_residual dir b proj cells hcell
  obtain ⟨t, k1, k2, _⟩ := c21_ranges_partial (R := R) dir b
  obtain ⟨t', l1, rfl, rfl, hg, _⟩ := construct_spec (R := R) dir b
  rw [h1] at k1 l1
  cases k1; cases l1
  have hsz : s'.systemSize = s.systemSize := by rw [h3, hg.size]
  refine ⟨s, s', h1, h2, ?_⟩
  intro x hx
  have := h5 x hx
  rw [hsz] at this
  exact ⟨(k2 _).1 this.1, (k2 _).1 this.2⟩

end Verif.Props.Assembly
