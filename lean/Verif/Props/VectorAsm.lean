import Verif.Lemmas.VectorAsm
/-!
Properties of the assemblers with conditions on single components: numbering (C124), elimination (C125), local values of a
solution (C126), Neumann conditions (C127). `dofTable dim fs` lists for each face the number of coefficients and the
prescribed ones, `bcVal fs D` are the prescribed values (`D.clamp` for clamped faces, `D.val` otherwise).
-/
namespace Verif.Props.VectorAsm
open Finset Verif.BoundaryCond Verif.Assembly Verif.Spec Verif.VectorAsm

variable {K : Type} [CommRing K]

/-! ### C124: numbering -/

/-- `assembler_mechanics`: the free coefficients are numbered without gap or repetition, the table holds the first number of
each face. -/
theorem c124_mechanics (dim : Nat) (hd : dim = 2 ∨ dim = 3) (fs : List FaceBc) (hf : ∀ f ∈ fs, ValidFace dim f) :
    ∃ offs, mechTable dim fs 0 = .ok (offs, numFree (dofTable dim fs)) ∧ offs.length = fs.length ∧ GoodOffs dim fs offs := by
  obtain ⟨offs, h1, h2, h3⟩ := mechTable_spec dim hd fs hf 0
  exact ⟨offs, by simpa using h1, h2, fun i hi => by simpa using h3 i hi⟩

/-- The later classes, when the contact faces are of type `SIGNORINI_FACE` without Dirichlet condition. -/
theorem c124_table_partial (dim : Nat) (hd : dim = 2 ∨ dim = 3) (fs : List FaceBc) (hf : ∀ f ∈ fs, ValidFace dim f)
    (hc : ∀ f ∈ fs, ContactOk f) :
    ∃ offs, table dim fs 0 = .ok (offs, numFree (dofTable dim fs)) ∧ offs.length = fs.length ∧ GoodOffs dim fs offs := by
  obtain ⟨offs, h1, h2, h3⟩ := table_spec dim hd fs hf hc 0
  exact ⟨offs, by simpa using h1, h2, fun i hi => by simpa using h3 i hi⟩

/-- The local numbering of a cell sends each free coefficient to its number and marks the others. -/
theorem c124_cell (dim : Nat) (hd : dim = 2 ∨ dim = 3) (fs : List FaceBc) (hf : ∀ f ∈ fs, ValidFace dim f)
    (offs : List Nat) (ho : GoodOffs dim fs offs) (fcs : List Nat) (hfc : ∀ i ∈ fcs, i < fs.length) :
    ∃ asm, cellMap dim fs offs fcs = .ok asm ∧ asm.length = (dofsOf (dofTable dim fs) fcs).length ∧
      ∀ p x, (dofsOf (dofTable dim fs) fcs)[p]? = some x →
        ((asm.getD p ⟨0, false⟩).assem = true ↔ IsFreeDof (dofTable dim fs) x.1 x.2) ∧
        (IsFreeDof (dofTable dim fs) x.1 x.2 → (asm.getD p ⟨0, false⟩).idx = dofNumber (dofTable dim fs) x.1 x.2) := by
  obtain ⟨asm, h1, h2, h3⟩ := cellMap_spec dim hd fs hf offs ho fcs hfc
  refine ⟨asm, h1, h2, fun p x hx => ?_⟩
  obtain ⟨d, d1, d2, d3, d4⟩ := h3 p x hx
  constructor
  · rw [d3]
    constructor
    · intro h
      exact ⟨d, d1, d2, by simpa using h⟩
    · rintro ⟨e, e1, e2, e3⟩
      rw [d1] at e1; cases e1
      simp [e3]
  · rintro ⟨e, e1, e2, e3⟩
    rw [d1] at e1; cases e1
    exact d4 e3

/-- The numbers are a bijection between the free coefficients and `0 .. N-1`. -/
theorem c124_bijection (ds : DofTable) :
    (∀ f i, IsFreeDof ds f i → dofNumber ds f i < numFree ds) ∧
    (∀ f i f' i', IsFreeDof ds f i → IsFreeDof ds f' i' → dofNumber ds f i = dofNumber ds f' i' → f = f' ∧ i = i') ∧
    ∀ r < numFree ds, ∃ f i, IsFreeDof ds f i ∧ dofNumber ds f i = r :=
  ⟨dofNumber_lt ds, dofNumber_inj ds, dofNumber_surj ds⟩

/-- A face with contact type `SIGNORINI` gets no unknowns, but its coefficients are numbered: they share the numbers of the
next face. -/
theorem c124_signorini_violated :
    ∃ fs : List FaceBc, (∀ f ∈ fs, ValidFace 2 f) ∧ table 2 fs 0 = .ok ([0, 0], 2) ∧
      cellMap 2 fs [0, 0] [0, 1] = .ok [⟨0, true⟩, ⟨1, true⟩, ⟨0, true⟩, ⟨1, true⟩] :=
  ⟨[⟨false, 0, true, SIGNORINI, false, 1⟩, ⟨false, 0, false, 0, false, 1⟩], by simp [ValidFace], rfl, rfl⟩

/-- With both a Dirichlet condition and contact of type `SIGNORINI_FACE` there are numbers without coefficient. -/
theorem c124_contact_dirichlet_violated :
    ∃ fs : List FaceBc, (∀ f ∈ fs, ValidFace 2 f) ∧ table 2 fs 0 = .ok ([0], 2) ∧
      cellMap 2 fs [0] [0] = .ok [⟨0, false⟩, ⟨1, false⟩] :=
  ⟨[⟨true, DIRICHLET, true, SIGNORINI_FACE, false, 1⟩], by
    intro f hf
    simp only [List.mem_singleton] at hf
    subst hf
    exact fun _ => ⟨by decide, fun _ => by decide⟩, rfl, rfl⟩

/-- Three faces in 2D: free, `x` prescribed, clamped. -/
def exFaces : List FaceBc :=
  [⟨false, 0, false, 0, true, 2⟩, ⟨true, DX, false, 0, false, 2⟩, ⟨true, CLAMPED, false, 0, false, 2⟩]

theorem exFaces_valid : ∀ f ∈ exFaces, ValidFace 2 f := by
  intro f hf
  simp only [exFaces, List.mem_cons, List.not_mem_nil, or_false] at hf
  rcases hf with rfl | rfl | rfl <;> exact fun _ => ⟨by decide, fun _ => by decide⟩

theorem exFaces_contact : ∀ f ∈ exFaces, ContactOk f := by
  intro f hf
  simp only [exFaces, List.mem_cons, List.not_mem_nil, or_false] at hf
  rcases hf with rfl | rfl | rfl <;> exact .inr (by simp)

example : mechTable 2 exFaces 0 = .ok ([0, 4, 6], 6) ∧ table 2 exFaces 0 = .ok ([0, 4, 6], 6) := ⟨rfl, rfl⟩
example : cellMap 2 exFaces [0, 4, 6] [1] = .ok [⟨4, false⟩, ⟨4, true⟩, ⟨6, false⟩, ⟨5, true⟩] := rfl
example : IsFreeDof (dofTable 2 exFaces) 1 3 ∧ dofNumber (dofTable 2 exFaces) 1 3 = 5 := ⟨⟨_, rfl, by decide, rfl⟩, by decide⟩

/-! ### C125: elimination -/

/-- `vector_primal_hho_assembler`, `vector_mechanics_hho_assembler`: the residual of the assembled system at the number of a
free coefficient is the sum of the residuals of the cells, evaluated with the prescribed values. -/
theorem c125_residual_partial (dim : Nat) (hd : dim = 2 ∨ dim = 3) (fs : List FaceBc) (hf : ∀ f ∈ fs, ValidFace dim f)
    (hc : ∀ f ∈ fs, ContactOk f) (D : BcData K) (cells : List (LocalSys K)) (hcell : ∀ c ∈ cells, GoodCell dim fs c) :
    ∃ A b, assemblePrimal dim fs D cells = .ok (numFree (dofTable dim fs), A, b) ∧
      ∀ (u : Nat → K) (x : Nat × Nat), IsFreeDof (dofTable dim fs) x.1 x.2 →
        (∑ j ∈ range (numFree (dofTable dim fs)), A (dofNumber (dofTable dim fs) x.1 x.2) j * u j) -
            b (dofNumber (dofTable dim fs) x.1 x.2) =
          (cells.map fun c => dofResidual (dofsOf (dofTable dim fs) c.fcs) c.lhs c.rhs
            (dofValue (dofTable dim fs) (bcVal fs D) u) x).sum := by
  obtain ⟨offs, h1, _, h3⟩ := c124_table_partial dim hd fs hf hc
  obtain ⟨a, a1, a2, a3, a4⟩ := assembleCells_spec dim hd fs hf offs h3 D cells hcell
  obtain ⟨b, b1, b2⟩ := finish_spec _ a.1 a.2 (fun _ => 0) a2 a3
  refine ⟨toMat a.1, b, ?_, fun u x hx => ?_⟩
  · simp only [assemblePrimal, h1, Outcome.bind_ok, a1, b1]
  · rw [← a4 u x hx, toMat_apply _ _ (fun t ht => (a2 t ht).2), b2, zero_add]

/-- `assembler_mechanics`. -/
theorem c125_mechanics (dim : Nat) (hd : dim = 2 ∨ dim = 3) (fs : List FaceBc) (hf : ∀ f ∈ fs, ValidFace dim f)
    (D : BcData K) (cells : List (LocalSys K)) (hcell : ∀ c ∈ cells, GoodCell dim fs c) :
    ∃ A b, assembleMech dim fs D cells = .ok (numFree (dofTable dim fs), A, b) ∧
      ∀ (u : Nat → K) (x : Nat × Nat), IsFreeDof (dofTable dim fs) x.1 x.2 →
        (∑ j ∈ range (numFree (dofTable dim fs)), A (dofNumber (dofTable dim fs) x.1 x.2) j * u j) -
            b (dofNumber (dofTable dim fs) x.1 x.2) =
          (cells.map fun c => dofResidual (dofsOf (dofTable dim fs) c.fcs) c.lhs c.rhs
            (dofValue (dofTable dim fs) (bcVal fs D) u) x).sum := by
  obtain ⟨offs, h1, _, h3⟩ := c124_mechanics dim hd fs hf
  obtain ⟨a, a1, a2, a3, a4⟩ := assembleCells_spec dim hd fs hf offs h3 D cells hcell
  obtain ⟨b, b1, b2⟩ := finish_spec _ a.1 a.2 (fun _ => 0) a2 a3
  refine ⟨toMat a.1, b, ?_, fun u x hx => ?_⟩
  · simp only [assembleMech, h1, Outcome.bind_ok, a1, b1]
  · rw [← a4 u x hx, toMat_apply _ _ (fun t ht => (a2 t ht).2), b2, zero_add]

/-- With a face of contact type `SIGNORINI` rows of different coefficients are added up: two cells, each with one of the
faces; the first row of the matrix holds both diagonal entries. -/
theorem c125_signorini_violated :
    ∃ (fs : List FaceBc) (cells : List (LocalSys Rat)), (∀ f ∈ fs, ValidFace 2 f) ∧ (∀ c ∈ cells, GoodCell 2 fs c) ∧
      ∃ A b, assemblePrimal 2 fs (linData fun _ _ => 0) cells = .ok (2, A, b) ∧ A 0 0 = 1 + 5 := by
  refine ⟨[⟨false, 0, true, SIGNORINI, false, 1⟩, ⟨false, 0, false, 0, false, 1⟩],
    [⟨[0], 2, fun _ _ => 1, fun _ => 0⟩, ⟨[1], 2, fun _ _ => 5, fun _ => 0⟩], by simp [ValidFace], ?_, ?_⟩
  · intro c hc
    simp only [List.mem_cons, List.not_mem_nil, or_false] at hc
    rcases hc with rfl | rfl
    · exact ⟨by simp, rfl⟩
    · exact ⟨by simp, rfl⟩
  · exact ⟨_, _, rfl, by decide +kernel⟩

/-- A cell with the three faces. -/
def exCell : LocalSys Rat := ⟨[2, 1, 0], 12, fun i j => (i : Rat) + 2 * j + 1, fun i => i⟩

theorem exCell_good : ∀ c ∈ [exCell], GoodCell 2 exFaces c := by
  intro c hc
  simp only [List.mem_singleton] at hc
  subst hc
  exact ⟨by decide, rfl⟩

example := c125_residual_partial 2 (.inl rfl) exFaces exFaces_valid exFaces_contact
  (nlData (fun _ c => (c : Rat)) fun _ _ => 3) [exCell] exCell_good
example := c125_mechanics 2 (.inl rfl) exFaces exFaces_valid (linData fun _ c => (c : Rat)) [exCell] exCell_good

/-! ### C126: local values of a solution -/

/-- The values on a cell: the prescribed values, and the unknowns with the numbers of the free coefficients. -/
theorem c126_local (dim : Nat) (hd : dim = 2 ∨ dim = 3) (fs : List FaceBc) (hf : ∀ f ∈ fs, ValidFace dim f)
    (offs : List Nat) (ho : GoodOffs dim fs offs) (D : BcData K) (sol : List K)
    (hs : sol.length = numFree (dofTable dim fs)) (fcs : List Nat) (hfc : ∀ i ∈ fcs, i < fs.length) :
    takeFaces dim fs offs D sol fcs = .ok ((dofsOf (dofTable dim fs) fcs).map
      (dofValue (dofTable dim fs) (bcVal fs D) fun j => sol.getD j 0)) :=
  takeFaces_spec dim hd fs hf offs ho D sol hs fcs hfc

/-- The expanded solution. -/
theorem c126_expand (dim : Nat) (hd : dim = 2 ∨ dim = 3) (fs : List FaceBc) (hf : ∀ f ∈ fs, ValidFace dim f)
    (offs : List Nat) (ho : GoodOffs dim fs offs) (D : BcData K) (sol : List K)
    (hs : sol.length = numFree (dofTable dim fs)) :
    expand dim fs offs (numFree (dofTable dim fs)) D sol =
      .ok ((dofsOf (dofTable dim fs) (List.range fs.length)).map
        (dofValue (dofTable dim fs) (bcVal fs D) fun j => sol.getD j 0)) := by
  rw [expand, if_pos hs]
  exact takeFaces_spec dim hd fs hf offs ho D sol hs _ fun i hi => List.mem_range.1 hi

/-- Solving the assembled system and expanding: the residuals of the cells, evaluated with the expanded solution, add up
to zero at every free coefficient. -/
theorem c126_solved_partial (dim : Nat) (hd : dim = 2 ∨ dim = 3) (fs : List FaceBc) (hf : ∀ f ∈ fs, ValidFace dim f)
    (hc : ∀ f ∈ fs, ContactOk f) (D : BcData K) (cells : List (LocalSys K)) (hcell : ∀ c ∈ cells, GoodCell dim fs c)
    (A : Nat → Nat → K) (b : Nat → K) (sol : List K)
    (ha : assemblePrimal dim fs D cells = .ok (sol.length, A, b))
    (hsol : ∀ r < sol.length, ∑ j ∈ range sol.length, A r j * sol.getD j 0 = b r) (x : Nat × Nat)
    (hx : IsFreeDof (dofTable dim fs) x.1 x.2) :
    (cells.map fun c => dofResidual (dofsOf (dofTable dim fs) c.fcs) c.lhs c.rhs
      (dofValue (dofTable dim fs) (bcVal fs D) fun j => sol.getD j 0) x).sum = 0 := by
  obtain ⟨A', b', h1, h2⟩ := c125_residual_partial dim hd fs hf hc D cells hcell
  rw [ha] at h1
  simp only [Outcome.ok.injEq, Prod.mk.injEq] at h1
  obtain ⟨hN, rfl, rfl⟩ := h1
  rw [← h2 _ x hx, ← hN, hsol _ (by rw [hN]; exact dofNumber_lt _ _ _ hx), sub_self]

/-- Nonlinear problems: adding the increment to the current values gives the boundary values. -/
theorem c126_increment (dim : Nat) (fs : List FaceBc) (proj solF : Nat → Nat → K) (u : Nat → K) (i c : Nat) (f : FaceBc)
    (hi : fs[i]? = some f) (hdir : f.dir = true) (hfx : fixedComp f.dtype (c % dim) = true) :
    solF i c + dofValue (dofTable dim fs) (bcVal fs (nlData proj solF)) u (i, c) =
      if f.dtype = CLAMPED then 0 else proj i c := by
  have hget : (dofTable dim fs)[i]? = some (dofs dim f) := by rw [dofTable_get, hi]; rfl
  simp only [dofValue, hget, Option.elim_some, dofs, hdir, Bool.true_and, hfx, if_true, bcVal, hi, nlData]
  by_cases h : f.dtype = CLAMPED
  · rw [if_pos h, if_pos h]; ring
  · rw [if_neg h, if_neg h]; ring

example : expand 2 exFaces [0, 4, 6] 6 (linData fun _ c => (c : Rat) + 10) [1, 2, 3, 4, 5, 6] =
    .ok [1, 2, 3, 4, 10, 5, 12, 6, 0, 0, 0, 0] := by decide +kernel

/-! ### C127: Neumann conditions -/

/-- The later classes: on the faces described by `NeuOk` the Neumann terms go to the rows of their coefficients. -/
theorem c127_neumann_partial (dim : Nat) (fs : List FaceBc) (hn : ∀ f ∈ fs, f.neu = true → NeuOk dim f) (offs : List Nat)
    (ho : GoodOffs dim fs offs) (g : Nat → Nat → K) (bs : List Nat) (hb : ∀ i ∈ bs, i < fs.length) (hbn : bs.Nodup)
    (v : Nat → K) :
    ∃ b, ((neuAll dim fs offs g bs).bind fun d => applyDuos (numFree (dofTable dim fs)) d v) = .ok b ∧
      ∀ x : Nat × Nat, IsFreeDof (dofTable dim fs) x.1 x.2 → b (dofNumber (dofTable dim fs) x.1 x.2) =
        v (dofNumber (dofTable dim fs) x.1 x.2) + faceLoad (fun i => (fs[i]?).elim false (·.neu)) g bs x := by
  obtain ⟨d, d1, d2, d3⟩ := neuAll_spec dim fs hn offs ho g bs hb hbn
  obtain ⟨b, b1, b2⟩ := applyDuos_spec _ d d2 v
  exact ⟨b, by rw [d1, Outcome.bind_ok, b1], fun x hx => by rw [b2, d3 x hx]⟩

/-- `assembler_mechanics`. -/
theorem c127_mechanics_partial (dim : Nat) (fs : List FaceBc) (hn : ∀ f ∈ fs, f.neu = true → MechNeuOk dim f)
    (offs : List Nat) (ho : GoodOffs dim fs offs) (g : Nat → Nat → K) (bs : List Nat) (hb : ∀ i ∈ bs, i < fs.length)
    (hbn : bs.Nodup) (v : Nat → K) :
    ∃ b, mechNeuAll dim fs offs (numFree (dofTable dim fs)) g bs v = .ok b ∧
      ∀ x : Nat × Nat, IsFreeDof (dofTable dim fs) x.1 x.2 → b (dofNumber (dofTable dim fs) x.1 x.2) =
        v (dofNumber (dofTable dim fs) x.1 x.2) + faceLoad (fun i => (fs[i]?).elim false (·.neu)) g bs x :=
  mechNeuAll_spec dim fs hn offs ho g bs hb hbn v

/-- A Neumann face with `x` prescribed followed by a free face: the load on `y` goes to the row of the other face. -/
theorem c127_dx_violated :
    ∃ fs : List FaceBc, (∀ f ∈ fs, ValidFace 2 f) ∧ table 2 fs 0 = .ok ([0, 1], 3) ∧
      dofNumber (dofTable 2 fs) 0 1 = 0 ∧ dofNumber (dofTable 2 fs) 1 0 = 1 ∧
      neuAll 2 fs [0, 1] (fun _ _ => (7 : Rat)) [0] = .ok [(1, 7)] ∧
      ∃ b, mechNeuAll 2 fs [0, 1] 3 (fun _ _ => (7 : Rat)) [0] (fun _ => 0) = .ok b ∧ b 0 = 0 ∧ b 1 = 7 :=
  ⟨[⟨true, DX, false, 0, true, 1⟩, ⟨false, 0, false, 0, false, 1⟩], by
    intro f hf
    simp only [List.mem_cons, List.not_mem_nil, or_false] at hf
    rcases hf with rfl | rfl <;> exact fun _ => ⟨by decide, fun _ => by decide⟩, rfl, by decide, by decide, rfl,
    _, rfl, by decide +kernel, by decide +kernel⟩

/-- As the last face it writes behind the end of the right-hand side. -/
theorem c127_range_violated :
    table 2 [⟨true, DX, false, 0, true, 1⟩] 0 = .ok ([0], 1) ∧
      ((neuAll 2 [⟨true, DX, false, 0, true, 1⟩] [0] (fun _ _ => (7 : Rat)) [0]).bind fun d =>
        applyDuos 1 d fun _ => 0) = .ub "vector index out of range" := ⟨rfl, rfl⟩

/-- The later classes with `y` prescribed in 3D: the load on `z` is added to the row of `x`. -/
theorem c127_dy_violated :
    table 3 [⟨true, DY, false, 0, true, 1⟩] 0 = .ok ([0], 2) ∧
      dofNumber (dofTable 3 [⟨true, DY, false, 0, true, 1⟩]) 0 2 = 1 ∧
      neuAll 3 [⟨true, DY, false, 0, true, 1⟩] [0] (fun _ c => (c : Rat)) [0] = .ok [(0, 0), (0, 2)] :=
  ⟨rfl, by decide, rfl⟩

/-- `assembler_mechanics` with `y` prescribed overwrites the contribution of the cells. -/
theorem c127_overwrite_violated :
    ∃ b, mechNeuAll 2 [⟨true, DY, false, 0, true, 1⟩] [0] 1 (fun _ _ => (7 : Rat)) [0] (fun _ => 4) = .ok b ∧ b 0 = 7 :=
  ⟨_, rfl, by decide +kernel⟩

example : ∀ f ∈ exFaces, f.neu = true → NeuOk 2 f := by
  intro f hf
  simp only [exFaces, List.mem_cons, List.not_mem_nil, or_false] at hf
  rcases hf with rfl | rfl | rfl <;> simp [NeuOk]
example : neuAll 2 exFaces [0, 4, 6] (fun _ c => (c : Rat) + 1) [0, 1, 2] = .ok [(0, 1), (1, 2), (2, 3), (3, 4)] := by
  decide +kernel
example : NeuOk 3 ⟨true, DZ, false, 0, true, 1⟩ ∧ MechNeuOk 3 ⟨true, DYDZ, false, 0, true, 1⟩ :=
  ⟨.inr (.inr ⟨rfl, .inl ⟨rfl, .inl rfl⟩⟩), .inr (.inr ⟨rfl, rfl, .inr rfl⟩)⟩

end Verif.Props.VectorAsm
