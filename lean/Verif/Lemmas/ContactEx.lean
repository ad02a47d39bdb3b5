import Verif.Lemmas.ContactGap
/-!
Contact: the checks of `compute`, and a cell with one edge as an example.
-/
noncomputable section
namespace Verif.Contact
open Tensor Finset Verif.Spec.Contact
open Verif.Rigidity (symBasis fn mulVec evalG)

variable {D : Nat}

theorem checkAll_ok {d : Data D} {fs : List (Face D)} (h : ∀ fc ∈ fs, fc.isContact = true → fc.s ≠ none ∧
    (d.frot = .coulomb → fc.ctype ≠ .signoriniCell)) : d.checkAll fs = .ok () := by
  induction fs with
  | nil => rfl
  | cons fc fs ih =>
    have h1 : d.checkFriction fc = .ok () := by
      unfold Data.checkFriction
      split
      · rename_i hc
        obtain ⟨a, b⟩ := h fc (by simp) hc
        rw [if_neg (by simpa using a), if_neg fun hh => b hh.1 hh.2.1]
      · rfl
    unfold Data.checkAll
    rw [h1, Outcome.bind_ok]
    exact ih fun g hg => h g (by simp [hg])

theorem badSizes_false {d : Data D} (hd : WellSized d) : d.faces.any d.badSizes = false := by
  rw [List.any_eq_false]
  intro fc hfc
  unfold Data.badSizes
  have h1 : (fc.qps.any fun q => (d.gb q.2).length != d.N) = false := by
    rw [List.any_eq_false]; intro q hq; simp [hd.qps fc hfc q hq]
  have h2 : (fc.nqps.any fun q => (d.gb q.2).length != d.N) = false := by
    rw [List.any_eq_false]; intro q hq; simp [hd.nqps fc hfc q hq]
  simp [h1, h2]

/-- The edge from (0, -1) to (1, -1) with affine displacements, and a point of quadrature at its beginning. -/
def edge (s : Option (Vec 2 → ℝ)) : Face 2 where
  isContact := true
  ctype := .signoriniFace
  s := s
  n := ![0, -1]
  hF := 1
  fbs := 4
  fb := fun p i k => (if i < 2 then 1 else 2 * p 0 - 1) * if i % 2 = k then 1 else 0
  pts := fun i => ![i, -1]
  qps := [(1, ![0, -1])]
  nqps := []

/-- A cell without stress on that edge. -/
def cell (fr : Friction) (s : Option (Vec 2 → ℝ)) : Data 2 where
  geo := geo2
  mu := 1
  lambda := 1
  theta := 0
  gamma0 := 1
  frot := fr
  ET := fun _ _ => 0
  N := 3
  n := 6
  cbs := 2
  cb := fun _ i k => if i = k then 1 else 0
  gb := fun _ => symBasis 2 [1]
  faces := [edge s]

theorem cell_sized (fr : Friction) (s : Option (Vec 2 → ℝ)) : WellSized (cell fr s) := by
  have h : (symBasis 2 [1]).length = 3 := by simp [symBasis, List.finRange_succ]
  constructor
  · rfl
  · intro _ _ _ _; exact h
  · intro _ _ _ _; exact h

/-- The displacement of a rotated edge. -/
def uRot : Nat → ℝ := fun i => if i = 3 ∨ i = 5 then 3 / 8 else 0

/-- A sliding edge. -/
def uSlide : Nat → ℝ := fun i => if i = 2 then -2 else 0

/-- The vertical translation of the edge. -/
def vUp : Nat → ℝ := fun i => if i = 3 then 1 else 0

theorem rot_gap (s : Option (Vec 2 → ℝ)) (t : ℝ) :
    computeGap geo2 (edge s) (fun i => uRot (2 + i) + t * vUp (2 + i)) ![0, -1] = 5 / 4 * (t - 1) := by
  have hP : ∀ (k : Nat) , newPt 4 (edge s).fb (fun i => uRot (2 + i) + t * vUp (2 + i)) ![(k : ℝ), -1] =
      ![(k : ℝ), -1 + 3 / 4 * k + t] := by
    intro k
    funext j
    fin_cases j
    · simp [newPt, edge, uRot, vUp, sum_range_succ]
    · simp [newPt, edge, uRot, vUp, sum_range_succ]; ring
  have h0 := hP 0
  have h1 := hP 1
  simp only [Nat.cast_zero, Nat.cast_one] at h0 h1
  have hT : turned (newPt 4 (edge s).fb (fun i => uRot (2 + i) + t * vUp (2 + i)) ![((0 : Nat) : ℝ), -1])
      (newPt 4 (edge s).fb (fun i => uRot (2 + i) + t * vUp (2 + i)) ![((1 : Nat) : ℝ), -1]) = ![-(3 / 4), 1] := by
    simp only [hP, turned]
    funext j
    fin_cases j <;> simp
  have hnorm : norm (![-(3 / 4), 1] : Vec 2) = 5 / 4 := by
    unfold norm
    rw [show dot (![-(3 / 4), 1] : Vec 2) ![-(3 / 4), 1] = (5 / 4) ^ 2 by simp [dot]; norm_num]
    exact Real.sqrt_sq (by norm_num)
  have hn : |normal2 (fun i => newPt 4 (edge s).fb (fun i => uRot (2 + i) + t * vUp (2 + i)) ![(i : ℝ), -1]) 1| =
      4 / 5 := by
    rw [normal2_last, hT, hnorm]
    simp
  have e : |copysign1 (dot (edge s).n (geo2.normal (edge s).pts)) *
      normal2 (fun i => newPt 4 (edge s).fb (fun i => uRot (2 + i) + t * vUp (2 + i)) ![(i : ℝ), -1]) 1| = 4 / 5 := by
    rw [abs_mul, abs_copysign, one_mul, hn]
  unfold computeGap
  dsimp only
  rw [g0_eq]
  · have h : newPt (edge s).fbs (edge s).fb (fun i => uRot (2 + i) + t * vUp (2 + i)) ![0, -1] geo2.last = -1 + t := by
      show newPt 4 (edge s).fb (fun i => uRot (2 + i) + t * vUp (2 + i)) ![0, -1] 1 = _
      rw [h0]; simp
    rw [h]
    refine Eq.trans (congrArg (fun a => (-1 + t) / a) e) ?_
    ring
  · refine le_of_le_of_eq ?_ e.symm
    norm_num

theorem cell_faces (fr : Friction) (s : Option (Vec 2 → ℝ)) :
    contactFaces (cell fr s).cbs (cell fr s).faces = [(2, edge s)] := by simp [contactFaces, cell, edge]

theorem cell_traction (fr : Friction) (s : Option (Vec 2 → ℝ)) (fc : Face 2) (v : Nat → ℝ) (p : Vec 2) (k : Fin 2) :
    traction (cell fr s) fc v p k = 0 := by simp [traction, hooke, strain, cell]

theorem cell_trial (fr : Friction) (s : Option (Vec 2 → ℝ)) (u : Nat → ℝ) (p : Vec 2) :
    trial (cell fr s) (edge s) 2 u p = computeGap geo2 (edge s) (fun i => u (2 + i)) p := by
  unfold trial gap
  simp [along, cell_traction]
  simp [cell, edge]

theorem slide_gap (s : Option (Vec 2 → ℝ)) (t : ℝ) :
    computeGap geo2 (edge s) (fun i => uSlide (2 + i) + t * vUp (2 + i)) ![0, -1] = t - 1 := by
  have hP : ∀ (k : Nat) , newPt 4 (edge s).fb (fun i => uSlide (2 + i) + t * vUp (2 + i)) ![(k : ℝ), -1] =
      ![(k : ℝ) - 2, -1 + t] := by
    intro k
    funext j
    fin_cases j
    · simp [newPt, edge, uSlide, vUp, sum_range_succ]; ring
    · simp [newPt, edge, uSlide, vUp, sum_range_succ]
  have h0 := hP 0
  simp only [Nat.cast_zero] at h0
  have hT : turned (newPt 4 (edge s).fb (fun i => uSlide (2 + i) + t * vUp (2 + i)) ![((0 : Nat) : ℝ), -1])
      (newPt 4 (edge s).fb (fun i => uSlide (2 + i) + t * vUp (2 + i)) ![((1 : Nat) : ℝ), -1]) = ![0, 1] := by
    simp only [hP, turned]
    funext j
    fin_cases j <;> simp
  have hn : |normal2 (fun i => newPt 4 (edge s).fb (fun i => uSlide (2 + i) + t * vUp (2 + i)) ![(i : ℝ), -1]) 1| =
      1 := by
    rw [normal2_last, hT]
    simp [norm, dot]
  have e : |copysign1 (dot (edge s).n (geo2.normal (edge s).pts)) *
      normal2 (fun i => newPt 4 (edge s).fb (fun i => uSlide (2 + i) + t * vUp (2 + i)) ![(i : ℝ), -1]) 1| = 1 := by
    rw [abs_mul, abs_copysign, one_mul, hn]
  unfold computeGap
  dsimp only
  rw [g0_eq]
  · have h : newPt (edge s).fbs (edge s).fb (fun i => uSlide (2 + i) + t * vUp (2 + i)) ![0, -1] geo2.last = -1 + t := by
      show newPt 4 (edge s).fb (fun i => uSlide (2 + i) + t * vUp (2 + i)) ![0, -1] 1 = _
      rw [h0]; simp
    rw [h]
    refine Eq.trans (congrArg (fun a => (-1 + t) / a) e) ?_
    ring
  · refine le_of_le_of_eq ?_ e.symm
    norm_num

theorem cell_disp (fr : Friction) (s : Option (Vec 2 → ℝ)) (v : Nat → ℝ) :
    disp (cell fr s) (edge s) 2 v ![0, -1] = ![v 2 - v 4, v 3 - v 5] := by
  funext k
  fin_cases k
  · simp [disp, edge, sum_range_succ]; ring
  · simp [disp, edge, sum_range_succ]; ring

theorem cell_phiN (fr : Friction) (s : Option (Vec 2 → ℝ)) (th : ℝ) (v : Nat → ℝ) :
    phiNV (cell fr s) th (edge s) 2 v ![0, -1] = v 3 - v 5 := by
  unfold phiNV
  rw [cell_disp]
  simp [along, cell_traction]
  simp [cell, edge]

theorem cell_phiT (fr : Friction) (s : Option (Vec 2 → ℝ)) (th : ℝ) (v : Nat → ℝ) :
    phiTV (cell fr s) th (edge s) 2 v ![0, -1] = ![v 4 - v 2, 0] := by
  unfold phiTV
  rw [cell_disp]
  funext k
  fin_cases k
  · simp [rest, along, cell_traction]; simp [cell, edge]
  · simp [rest, along, cell_traction]; simp [cell, edge]

/-- The force of the example at one unknown. -/
theorem cell_force {fr : Friction} {s : Option (Vec 2 → ℝ)} (hs : Limited (cell fr s)) (u : Nat → ℝ) {i : Nat}
    (hi : i < 6) : (cell fr s).fCont u i =
      pointWork (cell fr s) u (fun k => if k = i then 1 else 0) 2 (edge s) (1, ![0, -1]) := by
  have h := fCont_work (cell_sized fr s) hs u fun k => if k = i then 1 else 0
  have h6 : (cell fr s).n = 6 := rfl
  rw [cell_faces] at h
  have h1 : ∑ k ∈ range (cell fr s).n, (cell fr s).fCont u k * (if k = i then 1 else 0) = (cell fr s).fCont u i := by
    simp [h6, hi]
  rw [h1] at h
  rw [h, show (cell fr s).theta = 0 from rfl]
  simp [show (edge s).qps = [(1, ![0, -1])] from rfl]

/-- The matrix of the example applied to a vector. -/
theorem cell_matrix {fr : Friction} {s : Option (Vec 2 → ℝ)} (hs : Limited (cell fr s)) (u w : Nat → ℝ) {i : Nat}
    (hi : i < 6) : ∑ j ∈ range (cell fr s).n, (cell fr s).kCont u i j * w j =
      pointForm (cell fr s) u (fun k => if k = i then 1 else 0) w 2 (edge s) (1, ![0, -1]) := by
  have h := kCont_form (cell_sized fr s) hs u (fun k => if k = i then 1 else 0) w
  have h6 : (cell fr s).n = 6 := rfl
  rw [cell_faces] at h
  have h1 : ∑ a ∈ range (cell fr s).n, ∑ b ∈ range (cell fr s).n,
      (if a = i then 1 else 0) * (cell fr s).kCont u a b * w b =
      ∑ j ∈ range (cell fr s).n, (cell fr s).kCont u i j * w j := by
    rw [sum_eq_single i]
    · simp
    · intro b _ hb; simp [hb]
    · intro hb; exact absurd (mem_range.2 (by rw [h6]; exact hi)) hb
  rw [h1] at h
  rw [h, show (cell fr s).theta = 0 from rfl]
  simp [show (edge s).qps = [(1, ![0, -1])] from rfl]

theorem none_limited (s : Option (Vec 2 → ℝ)) : Limited (cell .none s) := fun h => absurd rfl h

theorem some_limited (fr : Friction) (s : Vec 2 → ℝ) : Limited (cell fr (some s)) := by
  intro _ fc hfc _
  simp [cell] at hfc
  subst hfc
  simp [edge]

theorem rot_force (t : ℝ) : (cell .none none).fCont (fun k => uRot k + t * vUp k) 3 = min 0 (5 / 4 * (t - 1)) := by
  rw [cell_force (none_limited _) _ (by norm_num)]
  unfold pointWork
  dsimp only
  rw [cell_trial, rot_gap, cell_phiN]
  simp [cell, edge]

theorem rot_matrix : ∑ j ∈ range (cell .none none).n, (cell .none none).kCont uRot 3 j * vUp j = 1 := by
  rw [cell_matrix (none_limited _) _ _ (by norm_num)]
  unfold pointForm
  dsimp only
  have h := rot_gap none 0
  simp only [zero_mul, add_zero] at h
  rw [cell_trial, h, cell_phiN, cell_phiN]
  simp [cell, edge, vUp]
  norm_num

theorem norm_two : norm (![2, 0] : Vec 2) = 2 := by
  unfold norm
  rw [show dot (![2, 0] : Vec 2) ![2, 0] = 2 ^ 2 by simp [dot]; norm_num]
  exact Real.sqrt_sq (by norm_num)

theorem slide_force {t : ℝ} (h1 : -1 < t) (h2 : t < 1) :
    (cell .coulomb (some fun _ => 1)).fCont (fun k => uSlide k + t * vUp k) 2 = t - 1 := by
  rw [cell_force (some_limited _ _) _ (by norm_num)]
  unfold pointWork limit
  dsimp only
  rw [cell_trial, slide_gap, cell_phiN, cell_phiT, cell_phiT]
  have hs : (edge (some fun _ => 1)).s = some fun _ => 1 := rfl
  have hc : (cell .coulomb (some fun _ => 1)).frot = .coulomb := rfl
  have hx : (![uSlide 4 + t * vUp 4 - (uSlide 2 + t * vUp 2), 0] : Vec 2) = ![2, 0] := by simp [uSlide, vUp]
  rw [hx, hs, hc]
  simp only [if_true, one_mul]
  rw [max_eq_right (by linarith)]
  have hp : proj (![2, 0] : Vec 2) (-(t - 1)) = fun k => -(t - 1) / 2 * ![2, 0] k := by
    have := proj_out (x := (![2, 0] : Vec 2)) (a := -(t - 1)) (by rw [norm_two]; linarith)
    rwa [norm_two] at this
  rw [hp]
  simp [cell, edge]

theorem slide_matrix : ∑ j ∈ range (cell .coulomb (some fun _ => 1)).n,
    (cell .coulomb (some fun _ => 1)).kCont uSlide 2 j * vUp j = 0 := by
  rw [cell_matrix (some_limited _ _) _ _ (by norm_num)]
  unfold pointForm
  dsimp only
  rw [cell_phiN, cell_phiN, cell_phiT (v := vUp)]
  simp [vUp]

theorem unit_div {x : Vec D} (h : norm x ≠ 0) : ∑ k, x k / norm x * (x k / norm x) = 1 := by
  have e : ∑ k, x k / norm x * (x k / norm x) = dot x x / (norm x * norm x) := by
    unfold dot
    rw [div_eq_mul_inv, sum_mul]
    exact sum_congr rfl fun k _ => by rw [div_mul_div_comm, div_eq_mul_inv]
  rw [e, ← norm_sq]
  exact div_self (mul_ne_zero h h)

/-- A face in space without unknowns. -/
def face3 : Face 3 where
  isContact := true
  ctype := .signoriniFace
  s := none
  n := ![0, 0, -1]
  hF := 1
  fbs := 0
  fb := fun _ _ _ => 0
  pts := fun i => if i = 0 then ![0, 0, -1] else if i = 1 then ![1, 0, -1] else ![0, 1, -1]
  qps := [(1, ![0, 0, -1])]
  nqps := []

/-- A cell in space. -/
def cell3 : Data 3 where
  geo := geo3
  mu := 1
  lambda := 1
  theta := 0
  gamma0 := 1
  frot := .none
  ET := fun _ _ => 0
  N := 6
  n := 3
  cbs := 3
  cb := fun _ i k => if i = k then 1 else 0
  gb := fun _ => symBasis 3 [1]
  faces := [face3]

theorem cell3_sized : WellSized cell3 := by
  have h : (symBasis 3 [1]).length = 6 := by simp [symBasis, List.finRange_succ]
  constructor
  · rfl
  · intro _ _ _ _; exact h
  · intro _ _ _ _; exact h

theorem cell3_gap (u : Nat → ℝ) : computeGap geo3 face3 u ![0, 0, -1] = -1 := by
  have hP : ∀ p : Vec 3, newPt face3.fbs face3.fb u p = p := by intro p; funext k; simp [newPt, face3]
  have e : |copysign1 (dot face3.n (geo3.normal face3.pts)) * normal3 face3.pts 2| = 1 := by
    rw [abs_mul, abs_copysign, one_mul, normal3_last]
    simp [face3, cross, norm, dot, Fin.sum_univ_three]
  unfold computeGap
  dsimp only
  simp only [hP]
  rw [g0_eq]
  · refine Eq.trans (congrArg (fun a => (![0, 0, -1] : Vec 3) 2 / a) e) ?_
    simp
  · refine le_of_le_of_eq ?_ e.symm
    norm_num

theorem cell3_level (u : Nat → ℝ) : Level3 face3 3 u := by
  simp [Level3, moved, newPt, face3]

theorem cell3_faces : contactFaces cell3.cbs cell3.faces = [(3, face3)] := by simp [contactFaces, cell3, face3]

theorem cell3_off (u : Nat → ℝ) : OffKinks cell3 u := by
  constructor
  · rw [cell3_faces]
    intro x hx q hq
    simp at hx
    subst hx
    simp [face3] at hq
    subst hq
    have h0 : along face3.n (traction cell3 face3 u ![0, 0, -1]) = 0 := by
      simp [along, traction, hooke, strain, cell3]
    have h1 : gap cell3 face3 3 u ![0, 0, -1] = -1 := by
      unfold gap
      rw [if_neg (by simp [face3])]
      exact cell3_gap _
    show trial cell3 face3 3 u ![0, 0, -1] ≠ 0
    unfold trial
    rw [h0, h1]
    simp [cell3, face3]
  · intro h; exact absurd rfl h

/-- The cell of the example with contact by its own unknowns. -/
def cellC : Data 2 := { cell .none none with faces := [{ edge none with ctype := .signoriniCell }] }

theorem cellC_sized : WellSized cellC := by
  have h : (symBasis 2 [1]).length = 3 := by simp [symBasis, List.finRange_succ]
  constructor
  · rfl
  · intro _ _ _ _; exact h
  · intro _ _ _ _; exact h

theorem cellC_off : OffKinks cellC 0 := by
  constructor
  · intro x hx q hq
    simp [cellC, cell, contactFaces, edge] at hx
    subst hx
    simp at hq
    subst hq
    simp only [trial, gap, computeG0, along, traction, hooke, strain, disp, cellC, cell, geo2]
    simp
    norm_num
  · intro h; exact absurd rfl h

/-- No kink for the example with face unknowns. -/
theorem cell_off {fr : Friction} {s : Option (Vec 2 → ℝ)} {u : Nat → ℝ}
    (h1 : computeGap geo2 (edge s) (fun i => u (2 + i)) ![0, -1] < 0)
    (h2 : fr ≠ .none → 0 ≤ limit (cell fr s) (edge s) 2 u ![0, -1] ∧
      (u 4 - u 2) ^ 2 ≠ limit (cell fr s) (edge s) 2 u ![0, -1] ^ 2) : OffKinks (cell fr s) u := by
  constructor
  · rw [cell_faces]
    intro x hx q hq
    simp at hx
    subst hx
    rw [show (edge s).qps = [(1, ![0, -1])] from rfl] at hq
    simp at hq
    subst hq
    show trial (cell fr s) (edge s) 2 u ![0, -1] ≠ 0
    rw [cell_trial]
    exact h1.ne
  · intro hf
    rw [cell_faces]
    intro x hx q hq
    simp at hx
    subst hx
    rw [show (edge s).qps = [(1, ![0, -1])] from rfl] at hq
    simp at hq
    subst hq
    refine ⟨(h2 hf).1, ?_⟩
    show ∑ k, phiTV (cell fr s) 1 (edge s) 2 u ![0, -1] k * phiTV (cell fr s) 1 (edge s) 2 u ![0, -1] k ≠ _
    rw [cell_phiT]
    have := (h2 hf).2
    simpa [pow_two] using this

theorem rot_off : OffKinks (cell .none none) uRot := by
  refine cell_off ?_ fun h => absurd rfl h
  have h := rot_gap none 0
  simp only [zero_mul, add_zero] at h
  rw [h]; norm_num

theorem slide_gap0 (s : Option (Vec 2 → ℝ)) : computeGap geo2 (edge s) (fun i => uSlide (2 + i)) ![0, -1] = -1 := by
  have h := slide_gap s 0
  simp only [zero_mul, add_zero] at h
  rw [h]; norm_num

theorem slide_off {fr : Friction} : OffKinks (cell fr (some fun _ => 1)) uSlide := by
  refine cell_off (by rw [slide_gap0]; norm_num) fun h => ?_
  have : limit (cell fr (some fun _ => 1)) (edge (some fun _ => 1)) 2 uSlide ![0, -1] = 1 := by
    unfold limit
    rw [cell_trial, slide_gap0]
    simp [edge]
  rw [this]
  constructor
  · norm_num
  · simp [uSlide]; norm_num

theorem slide_level (s : Option (Vec 2 → ℝ)) : Level2 (edge s) 2 uSlide := by
  constructor
  · simp [moved, newPt, edge, uSlide]
  · simp [moved, newPt, edge, uSlide]

/-- The cell of the example with stress, and the same quadrature for both terms. -/
def cellS (th : ℝ) : Data 2 :=
  { cell .none none with
    theta := th
    ET := fun r c => if r = 0 ∧ c = 0 then 1 else 0
    faces := [{ edge none with nqps := [(1, ![0, -1])] }] }

theorem cellS_sized (th : ℝ) : WellSized (cellS th) := by
  have h : (symBasis 2 [1]).length = 3 := by simp [symBasis, List.finRange_succ]
  constructor
  · rfl
  · intro _ _ _ _; exact h
  · intro _ _ _ _; exact h

theorem cellS_consistent (th : ℝ) : Consistent (cellS th) := by
  intro fc hfc; simp [cellS] at hfc; subst hfc; simp [edge]

theorem cellS_quadrature (th : ℝ) : SameQuadrature (cellS th) := by
  intro fc hfc _ u v; simp [cellS] at hfc; subst hfc; rfl

theorem cellS_usual (th : ℝ) : Usual (cellS th) := by
  constructor
  · simp [cellS, cell]
  · intro fc hfc _; simp [cellS] at hfc; subst hfc; simp [edge]
  · intro fc hfc _; simp [cellS] at hfc; subst hfc; simp [edge]
  · intro fc hfc _ q hq; simp [cellS] at hfc; subst hfc; simp [edge] at hq; subst hq; simp

theorem cellS_faces (th : ℝ) : contactFaces (cellS th).cbs (cellS th).faces =
    [(2, { edge none with nqps := [(1, ![0, -1])] })] := by simp [contactFaces, cellS, cell, edge]

/-- A displacement that lifts the edge by two. -/
def uLift : Nat → ℝ := fun k => uSlide k + 2 * vUp k

theorem cellS_traction (th : ℝ) (fc : Face 2) (p : Vec 2) (k : Fin 2) : traction (cellS th) fc uLift p k = 0 := by
  have h : ∀ r, ∑ c ∈ range (cellS th).n, (cellS th).ET r c * uLift c = 0 := by
    intro r
    refine sum_eq_zero fun c _ => ?_
    by_cases hc : c = 0
    · subst hc; simp [uLift, uSlide, vUp]
    · simp [cellS, hc]
  simp [traction, hooke, strain, h]

theorem cellS_signorini (th : ℝ) : ∀ x ∈ contactFaces (cellS th).cbs (cellS th).faces, ∀ q ∈ x.2.qps,
    Signorini (along x.2.n (traction (cellS th) x.2 uLift q.2)) (gap (cellS th) x.2 x.1 uLift q.2) := by
  rw [cellS_faces]
  intro x hx q hq
  simp at hx
  subst hx
  simp [edge] at hq
  subst hq
  have h : gap (cellS th) { edge none with nqps := [(1, ![0, -1])] } 2 uLift ![0, -1] = 1 := by
    unfold gap
    rw [if_neg (by simp [edge])]
    refine Eq.trans (slide_gap none 2) ?_
    norm_num
  show Signorini (along _ (traction (cellS th) _ uLift ![0, -1])) (gap _ _ _ _ ![0, -1])
  rw [h]
  simp [Signorini, along, cellS_traction]

end Verif.Contact
