import Verif.Lemmas.HhoDegrees
/-!
C87: degrees of an HHO method. C88: vector operators act by components. C89: vector reconstruction for a chosen
reconstruction degree.
-/
namespace Verif.Props.HhoDegrees
open Finset Verif.Hho Verif.HhoDegrees Verif.Spec.Hho Verif.Spec.HhoDegrees Verif.Util Verif.Lemmas.HhoDegrees

/-- The constructors with zero, one and two degrees give valid degrees and a reconstruction of degree `fd + 1`; the face
degree is the requested one and the cell degree too whenever that is allowed. -/
theorem c87_constructors_partial (cd fd : Nat) :
    Valid .default ∧ Valid (.equal fd) ∧ Valid (.mixed cd fd) ∧
    (Hdi.mixed cd fd).face = fd ∧ (Hdi.mixed cd fd).recd = fd + 1 ∧
    (cd ≤ fd + 1 → fd ≤ cd + 1 → (Hdi.mixed cd fd).cell = cd) ∧
    (¬ (cd ≤ fd + 1 ∧ fd ≤ cd + 1) → Hdi.mixed cd fd = .equal fd) := by
  refine ⟨⟨by decide, by decide, by decide⟩, ⟨by simp [Hdi.equal], by simp [Hdi.equal], by simp [Hdi.equal]⟩, ?_⟩
  by_cases h : cd ≤ fd + 1 ∧ fd ≤ cd + 1
  · have e : Hdi.mixed cd fd = ⟨cd, fd, fd, fd + 1⟩ := if_pos ((cellOk_iff cd fd).2 h)
    rw [e]
    exact ⟨⟨h.1, h.2, le_refl _⟩, rfl, rfl, fun _ _ => rfl, fun h' => absurd h h'⟩
  · have e : Hdi.mixed cd fd = .equal fd := if_neg (fun h' => h ((cellOk_iff cd fd).1 h'))
    rw [e]
    exact ⟨⟨by simp [Hdi.equal], by simp [Hdi.equal], by simp [Hdi.equal]⟩, rfl, rfl,
      fun h1 h2 => absurd ⟨h1, h2⟩ h, fun _ => rfl⟩

/-- The constructor with three degrees keeps valid requests and reverts requests in which both degrees are wrong. -/
theorem c87_three_partial (cd fd gd : Nat) :
    (Valid ⟨cd, fd, gd, fd + 1⟩ → Hdi.full cd fd gd = ⟨cd, fd, gd, fd + 1⟩) ∧
    (¬ (cd ≤ fd + 1 ∧ fd ≤ cd + 1) → ¬ fd ≤ gd → Hdi.full cd fd gd = .equal fd) ∧
    (Hdi.full cd fd gd).face = fd ∧ (Hdi.full cd fd gd).recd = fd + 1 := by
  refine ⟨fun h => ?_, fun h1 h2 => ?_, ?_⟩
  · exact if_pos (by simp [(cellOk_iff cd fd).2 ⟨h.1, h.2.1⟩])
  · refine if_neg ?_
    rw [Bool.or_eq_true, cellOk_iff, decide_eq_true_eq]
    exact fun h => h.elim h1 h2
  · unfold Hdi.full
    split <;> exact ⟨rfl, rfl⟩

/-- It accepts every request in which one of the two conditions fails: exactly those are the invalid results. -/
theorem c87_three_violated (cd fd gd : Nat) :
    Valid (.full cd fd gd) ↔ ((cd ≤ fd + 1 ∧ fd ≤ cd + 1) ↔ fd ≤ gd) := by
  unfold Hdi.full
  by_cases h1 : cd ≤ fd + 1 ∧ fd ≤ cd + 1
  · rw [if_pos (by simp [(cellOk_iff cd fd).2 h1])]
    exact ⟨fun h => ⟨fun _ => h.2.2, fun _ => h1⟩, fun h => ⟨h1.1, h1.2, h.1 h1⟩⟩
  · by_cases h2 : fd ≤ gd
    · rw [if_pos (by simp [h2])]
      exact ⟨fun h => absurd ⟨h.1, h.2.1⟩ h1, fun h => absurd (h.2 h2) h1⟩
    · rw [if_neg (by rw [Bool.or_eq_true, cellOk_iff, decide_eq_true_eq]; exact fun h => h.elim h1 h2)]
      exact ⟨fun _ => ⟨fun h => absurd h h1, fun h => absurd h h2⟩, fun _ => ⟨by simp, by simp, by simp⟩⟩

/-- Two requests that the constructor documents as not allowed and accepts. -/
theorem c87_three_violated_witness :
    Hdi.full 7 0 0 = ⟨7, 0, 0, 1⟩ ∧ ¬ Valid (.full 7 0 0) ∧ Hdi.full 2 2 0 = ⟨2, 2, 0, 3⟩ ∧ ¬ Valid (.full 2 2 0) :=
  ⟨rfl, fun h => absurd h.1 (by decide), rfl, fun h => absurd h.2.2 (by decide)⟩

/-- The degrees a mesh-wide object built from three degrees gives for a cell are those of the cell-wise object. -/
theorem c87_mesh_same {nc nf cd fd gd : Nat} {cell : Nat} (hc : cell < nc) {fcs : List Nat} (hf : ∀ f ∈ fcs, f < nf) :
    (MeshInfo.ofDegrees nc nf cd fd gd).cellInfo cell fcs = .ok (.ofDegrees fcs.length cd fd gd) := by
  have h : (MeshInfo.ofDegrees nc nf cd fd gd).facesInfo fcs = .ok (List.replicate fcs.length (.mk' fd)) := by
    induction fcs with
    | nil => rfl
    | cons f fs ih =>
      have hf0 := hf f List.mem_cons_self
      rw [MeshInfo.facesInfo, ih fun g hg => hf g (List.mem_cons_of_mem _ hg)]
      simp [at', MeshInfo.ofDegrees, hf0, Outcome.bind, List.replicate_succ]
  unfold MeshInfo.cellInfo
  rw [h]
  simp [at', MeshInfo.ofDegrees, hc, Outcome.bind, CellInfo.ofDegrees]

/-- Changing the degree of one face changes the degrees of exactly the places where a cell has that face. -/
theorem c87_face_degree {m m' : MeshInfo} {f k : Nat} (h : m.setFaceDegree f k = .ok m') {cell : Nat} {fcs : List Nat}
    {ci : CellInfo} (hci : m.cellInfo cell fcs = .ok ci) :
    m'.cellInfo cell fcs = .ok { ci with
      faces := List.zipWith (fun g d => if g = f then { d with degree := k } else d) fcs ci.faces } := by
  have hm : ∃ d, m.faces[f]? = some d ∧ m' = { m with faces := m.faces.set f { d with degree := k } } := by
    unfold MeshInfo.setFaceDegree at' at h
    cases e : m.faces[f]? with
    | none => rw [e] at h; simp [Outcome.bind] at h
    | some d => rw [e] at h; simp [Outcome.bind] at h; exact ⟨d, rfl, h.symm⟩
  obtain ⟨d0, hd0, rfl⟩ := hm
  have key : ∀ (fcs : List Nat) (ds : List DegreeInfo), m.facesInfo fcs = .ok ds →
      ({ m with faces := m.faces.set f { d0 with degree := k } } : MeshInfo).facesInfo fcs =
        .ok (List.zipWith (fun g d => if g = f then { d with degree := k } else d) fcs ds) := by
    intro fcs
    induction fcs with
    | nil => intro ds h; rfl
    | cons g gs ih =>
      intro ds h
      rw [MeshInfo.facesInfo] at h
      unfold at' at h
      cases e : m.faces[g]? with
      | none => rw [e] at h; simp [Outcome.bind] at h
      | some d =>
        rw [e] at h
        cases e2 : m.facesInfo gs with
        | throws w => rw [e2] at h; simp [Outcome.bind] at h
        | ub w => rw [e2] at h; simp [Outcome.bind] at h
        | ok ds' =>
          rw [e2] at h
          simp only [Outcome.bind, Outcome.ok.injEq] at h
          subst h
          rw [MeshInfo.facesInfo, ih ds' e2]
          by_cases hgf : g = f
          · subst hgf
            rw [hd0] at e
            obtain rfl : d0 = d := Option.some.inj e
            have hlt : g < m.faces.length := by
              by_contra hcon
              rw [List.getElem?_eq_none (by omega)] at hd0
              exact absurd hd0 (by simp)
            simp [at', hlt, Outcome.bind]
          · simp [at', List.getElem?_set_ne (Ne.symm hgf), e, Outcome.bind, hgf]
  unfold MeshInfo.cellInfo at hci ⊢
  cases e1 : at' m.cells cell with
  | throws w => rw [e1] at hci; simp [Outcome.bind] at hci
  | ub w => rw [e1] at hci; simp [Outcome.bind] at hci
  | ok a =>
    cases e2 : at' m.recs cell with
    | throws w => rw [e1, e2] at hci; simp [Outcome.bind] at hci
    | ub w => rw [e1, e2] at hci; simp [Outcome.bind] at hci
    | ok b =>
      cases e3 : at' m.grads cell with
      | throws w => rw [e1, e2, e3] at hci; simp [Outcome.bind] at hci
      | ub w => rw [e1, e2, e3] at hci; simp [Outcome.bind] at hci
      | ok c =>
        cases e4 : m.facesInfo fcs with
        | throws w => rw [e1, e2, e3, e4] at hci; simp [Outcome.bind] at hci
        | ub w => rw [e1, e2, e3, e4] at hci; simp [Outcome.bind] at hci
        | ok ds =>
          rw [e1, e2, e3, e4] at hci
          simp only [Outcome.bind, Outcome.ok.injEq] at hci
          subst hci
          rw [key fcs ds e4]
          rfl

variable {K : Type} [Field K]

/-- The vector matrix made from a scalar one: its bilinear form is the sum over the components of the scalar form. -/
theorem c88_lhs (nd : Bool) {dim : Nat} (hd : 0 < dim) (ci : CellInfo) (A : DMat K)
    (hr : A.rows = scalarDofs dim ci) (hc : A.cols = scalarDofs dim ci) :
    ∃ B : Mat K, lhsVector nd dim ci A = .ok ⟨scalarDofs dim ci * dim, scalarDofs dim ci * dim, B⟩ ∧
      ∀ v u : Nat → K, form (scalarDofs dim ci * dim) B v u =
        ∑ k ∈ range dim, form (scalarDofs dim ci) A.at_ (comp dim k v) (comp dim k u) := by
  refine ⟨expand dim (scalarDofs dim ci) (scalarDofs dim ci) A.at_, ?_, form_expand hd _ A.at_⟩
  unfold lhsVector checked
  simp only [total_eq, Nat.mul_div_cancel _ hd, hr, hc]
  simp

/-- The vector reconstruction made from a scalar one reconstructs each component by the scalar one. -/
theorem c88_grad (nd : Bool) {dim : Nat} (hd : 0 < dim) (ci : CellInfo) (A : DMat K)
    (hr : A.rows = scalarBasisSize ci.recd.degree dim - 1) (hc : A.cols = scalarDofs dim ci) :
    ∃ B : Mat K, gradVector nd dim ci A = .ok ⟨A.rows * dim, A.cols * dim, B⟩ ∧
      ∀ (u : Nat → K), ∀ i < A.rows, ∀ k < dim,
        app (A.cols * dim) B u (i * dim + k) = app A.cols A.at_ (comp dim k u) i := by
  refine ⟨expand dim A.rows A.cols A.at_, ?_, fun u i hi k hk => app_expand hd A.at_ u hi hk⟩
  have e1 : vectorBasisSize ci.recd.degree dim dim / dim = scalarBasisSize ci.recd.degree dim :=
    Nat.mul_div_cancel_left _ hd
  have e2 : vectorBasisSize ci.recd.degree dim dim - dim = (scalarBasisSize ci.recd.degree dim - 1) * dim := by
    rw [Nat.sub_mul, Nat.one_mul, Nat.mul_comm]
    rfl
  unfold gradVector checked
  simp only [total_eq, Nat.mul_div_cancel _ hd, e1, e2, hr, hc]
  simp

/-- The matrix-valued gradient made from a vector-valued one: row `i` of component `k` is row `i` of the scalar operator
applied to component `k`. -/
theorem c88_grad_matrix (nd : Bool) {dim : Nat} (hd : 0 < dim) (ci : CellInfo) (A : DMat K)
    (hr : A.rows = vectorBasisSize ci.grad.degree dim dim) (hc : A.cols = scalarDofs dim ci) :
    ∃ B : Mat K, gradMatrix nd dim ci A = .ok ⟨A.rows * dim, A.cols * dim, B⟩ ∧
      ∀ (u : Nat → K), ∀ i < A.rows, ∀ k < dim,
        app (A.cols * dim) B u (i * dim + k) = app A.cols A.at_ (comp dim k u) i := by
  refine ⟨expand dim A.rows A.cols A.at_, ?_, fun u i hi k hk => app_expand hd A.at_ u hi hk⟩
  have e0 : matrixBasisSize ci.grad.degree dim dim = vectorBasisSize ci.grad.degree dim dim * dim := by
    unfold matrixBasisSize vectorBasisSize
    rw [Nat.mul_assoc, Nat.mul_comm dim (dim * _)]
  unfold gradMatrix checked
  simp only [total_eq, Nat.mul_div_cancel _ hd, e0, hr, hc]
  simp

/-- `make_vector_hho_laplacian` with an `hho_degree_info` whose reconstruction degree is `fd + 1` reconstructs each
component by the scalar operator and sums the scalar energies. -/
theorem c89_vector_partial (nd : Bool) {dim : Nat} (hd : 0 < dim) {h : Hdi} (hr : h.recd = h.face + 1) {nf : Nat}
    {L : DMat K × DMat K} (hL : scalarSizes dim h nf L) :
    ∃ oper data : DMat K, vectorLaplacian nd dim h nf L = .ok (oper, data) ∧
      oper.rows = L.1.rows * dim ∧ oper.cols = L.1.cols * dim ∧
      (∀ (u : Nat → K), ∀ i < L.1.rows, ∀ k < dim,
        app (L.1.cols * dim) oper.at_ u (i * dim + k) = app L.1.cols L.1.at_ (comp dim k u) i) ∧
      ∀ v u : Nat → K, form (L.2.cols * dim) data.at_ v u =
        ∑ k ∈ range dim, form L.2.cols L.2.at_ (comp dim k v) (comp dim k u) := by
  obtain ⟨h1, h2, h3, h4⟩ := hL
  have hs : scalarDofs dim (h.cellInfo nf) = scalarBasisSize h.cell dim + nf * scalarBasisSize h.face (dim - 1) := by
    unfold scalarDofs Hdi.cellInfo CellInfo.ofDegrees
    rw [scalarFacesDofs_replicate]
    rfl
  obtain ⟨B, hB, hB'⟩ := c88_grad nd hd (h.cellInfo nf) L.1 (by rw [h1, hr]; rfl) (by rw [h2, hs])
  obtain ⟨D, hD, hD'⟩ := c88_lhs nd hd (h.cellInfo nf) L.2 (by rw [h3, hs]) (by rw [h4, hs])
  refine ⟨⟨L.1.rows * dim, L.1.cols * dim, B⟩, ⟨scalarDofs dim (h.cellInfo nf) * dim, scalarDofs dim (h.cellInfo nf) * dim, D⟩, ?_, rfl, rfl, hB', ?_⟩
  · unfold vectorLaplacian
    rw [hB, hD]
    rfl
  · intro v u
    have := hD' v u
    rw [hs, ← h4] at this
    exact this

/-- For every other reconstruction degree the assertion of `compute_grad_vector` fails, although the scalar operator
exists. -/
theorem c89_vector_violated {dim : Nat} (hd : 0 < dim) {h : Hdi} (hr : h.recd ≠ h.face + 1) {nf : Nat}
    {L : DMat K × DMat K} (hL : scalarSizes dim h nf L) : vectorLaplacian false dim h nf L = .ub "assert" := by
  have hne : L.1.rows ≠ vectorBasisSize (h.face + 1) dim dim / dim - 1 := by
    have e1 : vectorBasisSize (h.face + 1) dim dim / dim = scalarBasisSize (h.face + 1) dim :=
      Nat.mul_div_cancel_left _ hd
    rw [e1, hL.1]
    have p1 := scalarBasisSize_pos h.recd dim
    have p2 := scalarBasisSize_pos (h.face + 1) dim
    rcases Nat.lt_or_gt_of_ne hr with h' | h'
    · have := scalarBasisSize_lt hd h'
      omega
    · have := scalarBasisSize_lt hd h'
      omega
  unfold vectorLaplacian gradVector checked
  have : (h.cellInfo nf).recd.degree = h.face + 1 := rfl
  rw [this, if_pos ⟨rfl, Or.inl hne⟩]
  rfl

/-- Without assertions: a smaller reconstruction degree reads outside the scalar operator; a larger one loses rows of
it. -/
theorem c89_vector_violated_ndebug {dim : Nat} (hd : 0 < dim) {h : Hdi} {nf : Nat} {L : DMat K × DMat K}
    (hL : scalarSizes dim h nf L) :
    (h.recd < h.face + 1 → vectorLaplacian true dim h nf L = .ub "read outside the matrix") ∧
    (h.face + 1 < h.recd → ∃ oper data : DMat K, vectorLaplacian true dim h nf L = .ok (oper, data) ∧
      oper.rows < L.1.rows * dim) := by
  obtain ⟨h1, h2, h3, h4⟩ := hL
  have hs : scalarDofs dim (h.cellInfo nf) = scalarBasisSize h.cell dim + nf * scalarBasisSize h.face (dim - 1) := by
    unfold scalarDofs Hdi.cellInfo CellInfo.ofDegrees
    rw [scalarFacesDofs_replicate]
    rfl
  have e1 : vectorBasisSize (h.face + 1) dim dim / dim = scalarBasisSize (h.face + 1) dim :=
    Nat.mul_div_cancel_left _ hd
  have hrd : (h.cellInfo nf).recd.degree = h.face + 1 := rfl
  have p0 := scalarBasisSize_pos h.cell dim
  have p1 := scalarBasisSize_pos h.recd dim
  have p2 := scalarBasisSize_pos (h.face + 1) dim
  constructor
  · intro hlt
    have := scalarBasisSize_lt hd hlt
    unfold vectorLaplacian gradVector checked
    simp only [hrd, total_eq, Nat.mul_div_cancel _ hd, e1]
    rw [if_neg (by simp), if_pos ⟨by omega, by rw [hs]; omega, Or.inl (by rw [h1]; omega)⟩]
    rfl
  · intro hlt
    have hb := scalarBasisSize_lt hd hlt
    obtain ⟨D, hD, _⟩ := c88_lhs true hd (h.cellInfo nf) L.2 (by rw [h3, hs]) (by rw [h4, hs])
    refine ⟨⟨vectorBasisSize (h.face + 1) dim dim - dim, scalarDofs dim (h.cellInfo nf) * dim,
      expand dim (scalarBasisSize (h.face + 1) dim - 1) (scalarDofs dim (h.cellInfo nf)) L.1.at_⟩, ⟨scalarDofs dim (h.cellInfo nf) * dim, scalarDofs dim (h.cellInfo nf) * dim, D⟩, ?_, ?_⟩
    · unfold vectorLaplacian
      rw [hD]
      unfold gradVector checked
      simp only [hrd, total_eq, Nat.mul_div_cancel _ hd, e1]
      rw [if_neg (by simp), if_neg (by rw [h1, h2, hs]; omega)]
      rfl
    · have e2 : vectorBasisSize (h.face + 1) dim dim - dim = (scalarBasisSize (h.face + 1) dim - 1) * dim := by
        rw [Nat.sub_mul, Nat.one_mul, Nat.mul_comm]
        rfl
      show vectorBasisSize (h.face + 1) dim dim - dim < _
      rw [e2, h1]
      exact Nat.mul_lt_mul_of_pos_right (by omega) hd

/-- A triangle, degree 1 everywhere: the sizes are those the code produces. -/
example : ∃ oper data : DMat ℚ, vectorLaplacian false 2 (.equal 1) 3 (⟨5, 9, zero⟩, ⟨9, 9, zero⟩) = .ok (oper, data) ∧
    oper.rows = 10 := by
  obtain ⟨o, d, h, h1, _⟩ := c89_vector_partial (K := ℚ) false (dim := 2) (by omega) (h := .equal 1) rfl (nf := 3)
    (L := (⟨5, 9, zero⟩, ⟨9, 9, zero⟩)) (by refine ⟨?_, ?_, ?_, ?_⟩ <;> decide)
  exact ⟨o, d, h, h1⟩

/-- The same with the reconstruction degree set to 3, as `diffusion_hho.cpp` does for the scalar operator. -/
example : vectorLaplacian (K := ℚ) false 2 ((Hdi.equal 1).setRec 3) 3 (⟨9, 9, zero⟩, ⟨9, 9, zero⟩) = .ub "assert" :=
  c89_vector_violated (by omega) (by decide) (by refine ⟨?_, ?_, ?_, ?_⟩ <;> decide)

example : (MeshInfo.ofDegrees 2 5 1 1 1).cellInfo 1 [2, 3, 4] = .ok (.ofDegrees 3 1 1 1) :=
  c87_mesh_same (by omega) (by decide)

end Verif.Props.HhoDegrees
