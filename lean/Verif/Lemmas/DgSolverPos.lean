import Mathlib.Tactic.FieldSimp
import Verif.Lemmas.DgSolverForm
/-!
Positivity of the interior penalty form for a penalty above the trace constant.
-/
namespace Verif.Lemmas.Dg
open Finset Verif.Hho Verif.DgSolver Verif.Spec.Hho Verif.Spec.Dg Verif.Lemmas.Hho LocalMatrix

section
variable {K P : Type} [Field K]

theorem sides_cases {d k cbs : Nat} {m : Mesh P K} (h : MeshOk d k cbs m) (f : Nat) :
    sides m f = [] ∨ (∃ s, sides m f = [s] ∧ dot d s.2 s.2 = 1) ∨
      ∃ s t, sides m f = [s, t] ∧ s.1 ≠ t.1 ∧ dot d s.2 s.2 = 1 ∧ dot d t.2 t.2 = 1 ∧ ∀ c < d, t.2 c = -s.2 c := by
  have hu : ∀ s ∈ sides m f, dot d s.2 s.2 = 1 := fun s hs =>
    h.unit s.1 (mem_sides.1 hs).1 (f, s.2) (mem_sides.1 hs).2
  have hn := sides_nodup h f
  have h2 := h.two f
  match e : sides m f with
  | [] => exact .inl rfl
  | [s] => exact .inr (.inl ⟨s, rfl, hu s (by simp [e])⟩)
  | [s, t] =>
    have hs : s ∈ sides m f := by simp [e]
    have ht : t ∈ sides m f := by simp [e]
    have hne : s.1 ≠ t.1 := by rw [e] at hn; simpa using hn
    exact .inr (.inr ⟨s, t, rfl, hne, hu s hs, hu t ht,
      h.opposite s.1 (mem_sides.1 hs).1 t.1 (mem_sides.1 ht).1 hne (f, s.2) (mem_sides.1 hs).2
        (f, t.2) (mem_sides.1 ht).2 rfl⟩)
  | _ :: _ :: _ :: _ => rw [e] at h2; simp at h2

theorem dot_neg_of {d : Nat} {n n' : Nat → K} (h : ∀ c < d, n' c = -n c) (g : Nat → K) : dot d g n' = -dot d g n := by
  unfold dot
  rw [← sum_neg_distrib]
  exact sum_congr rfl fun c hc => by rw [h c (mem_range.1 hc)]; ring

/-- Jump and average on a face with one cell. -/
theorem jump_single {d k : Nat} {m : Mesh P K} {f : Nat} {s : Nat × (Nat → K)} (e : sides m f = [s])
    (hu : dot d s.2 s.2 = 1) (X : Nat → Nat → K) (x : P) :
    dot d (jump k m f X x) (jump k m f X x) = Spec.Dg.val k m X s.1 x ^ 2 ∧
      dot d (jump k m f X x) (avg k m f X x) = Spec.Dg.val k m X s.1 x * dot d (grd k m X s.1 x) s.2 := by
  constructor
  · rw [dot_jump_right, e]
    simp only [List.map_cons, List.map_nil, List.sum_cons, List.sum_nil, add_zero]
    rw [dot_comm, dot_jump_right, e]
    simp only [List.map_cons, List.map_nil, List.sum_cons, List.sum_nil, add_zero, hu]
    ring
  · rw [dot_comm, dot_jump_right, e]
    simp only [List.map_cons, List.map_nil, List.sum_cons, List.sum_nil, add_zero]
    rw [dot_comm, dot_avg_right, e]
    simp only [List.map_cons, List.map_nil, List.sum_cons, List.sum_nil, add_zero, List.length_singleton, Nat.cast_one]
    ring

/-- Jump and average on a face with two cells. -/
theorem jump_pair {d k : Nat} {m : Mesh P K} {f : Nat} {s t : Nat × (Nat → K)} (e : sides m f = [s, t])
    (hu : dot d s.2 s.2 = 1) (ho : ∀ c < d, t.2 c = -s.2 c) (X : Nat → Nat → K) (x : P) :
    dot d (jump k m f X x) (jump k m f X x) = (Spec.Dg.val k m X s.1 x - Spec.Dg.val k m X t.1 x) ^ 2 ∧
      dot d (jump k m f X x) (avg k m f X x) = (Spec.Dg.val k m X s.1 x - Spec.Dg.val k m X t.1 x) *
        (1 / 2 * (dot d (grd k m X s.1 x) s.2 - dot d (grd k m X t.1 x) t.2)) := by
  have hj : ∀ b, dot d b (jump k m f X x) = dot d b s.2 * (Spec.Dg.val k m X s.1 x - Spec.Dg.val k m X t.1 x) := by
    intro b
    rw [dot_jump_right, e]
    simp only [List.map_cons, List.map_nil, List.sum_cons, List.sum_nil, add_zero, dot_neg_of ho]
    ring
  constructor
  · rw [hj, dot_comm, hj, hu]; ring
  · rw [dot_comm, hj, dot_comm, dot_avg_right, e]
    simp only [List.map_cons, List.map_nil, List.sum_cons, List.sum_nil, add_zero, List.length_cons, List.length_nil,
      dot_neg_of ho]
    push_cast
    ring

theorem jump_nil {k : Nat} {m : Mesh P K} {f : Nat} (e : sides m f = []) (X : Nat → Nat → K) (x : P) (c : Nat) :
    jump k m f X x c = 0 := by simp [jump, e]

end

variable {K P : Type} [Field K] [LinearOrder K] [IsStrictOrderedRing K]

theorem quad_nonneg {qs : List (QP P K)} {g : P → K} (hw : ∀ q ∈ qs, 0 ≤ q.w) (hg : ∀ q ∈ qs, 0 ≤ g q.pt) :
    0 ≤ quad qs g := by
  unfold quad
  refine List.sum_nonneg fun x hx => ?_
  obtain ⟨q, hq, rfl⟩ := List.mem_map.1 hx
  exact mul_nonneg (hw q hq) (hg q hq)

theorem dot_self_nonneg (d : Nat) (g : Nat → K) : 0 ≤ dot d g g := sum_nonneg fun _ _ => mul_self_nonneg _

theorem young {ε h : K} (he : 0 < ε) (hh : 0 < h) (a b : K) : 2 * (a * b) ≤ ε / h * a ^ 2 + h / ε * b ^ 2 := by
  have h1 : 0 ≤ h / ε * (ε / h * a - b) ^ 2 := mul_nonneg (div_pos hh he).le (sq_nonneg _)
  have e : h / ε * (ε / h * a - b) ^ 2 = ε / h * a ^ 2 + h / ε * b ^ 2 - 2 * (a * b) := by
    field_simp
    ring
  linarith

/-- The consistency terms of a face are controlled by the jump and the normal derivatives. -/
theorem face_young {d k cbs : Nat} {m : Mesh P K} (h : MeshOk d k cbs m) (f : Nat) {ε : K} (he : 0 < ε)
    (hh : 0 < (m.face f).diam) (X : Nat → Nat → K) (x : P) :
    2 * dot d (jump k m f X x) (avg k m f X x) ≤
      ε / (m.face f).diam * dot d (jump k m f X x) (jump k m f X x) +
      ((sides m f).map fun s => (m.face f).diam / ε * dot d (grd k m X s.1 x) s.2 ^ 2).sum := by
  have hp := (div_pos hh he).le
  rcases sides_cases h f with e | ⟨s, e, hu⟩ | ⟨s, t, e, _, hu, _, ho⟩
  · have : ∀ b, dot d (jump k m f X x) b = 0 := fun b => sum_eq_zero fun c _ => by rw [jump_nil e, zero_mul]
    rw [this, this, e]; simp
  · rw [(jump_single e hu X x).1, (jump_single e hu X x).2, e]
    simp only [List.map_cons, List.map_nil, List.sum_cons, List.sum_nil, add_zero]
    exact young he hh _ _
  · rw [(jump_pair e hu ho X x).1, (jump_pair e hu ho X x).2, e]
    simp only [List.map_cons, List.map_nil, List.sum_cons, List.sum_nil, add_zero]
    refine (young he hh _ _).trans ?_
    rw [← mul_add]
    refine add_le_add le_rfl (mul_le_mul_of_nonneg_left ?_ hp)
    nlinarith [sq_nonneg (dot d (grd k m X s.1 x) s.2 + dot d (grd k m X t.1 x) t.2),
      sq_nonneg (dot d (grd k m X s.1 x) s.2), sq_nonneg (dot d (grd k m X t.1 x) t.2)]

/-- The squared jump on a face, divided by the diameter. -/
def jumpSq (d k : Nat) (m : Mesh P K) (X : Nat → Nat → K) (f : Nat) : K :=
  1 / (m.face f).diam * quad ((m.face f).integrate (2 * k)) fun x => dot d (jump k m f X x) (jump k m f X x)

theorem quad_mono {qs : List (QP P K)} {g g' : P → K} (hw : ∀ q ∈ qs, 0 ≤ q.w) (hg : ∀ q ∈ qs, g q.pt ≤ g' q.pt) :
    quad qs g ≤ quad qs g' := by
  have := quad_nonneg (g := fun x => g' x - g x) hw fun q hq => sub_nonneg.2 (hg q hq)
  rw [quad_sub] at this
  linarith

/-- Lower bound of the form. -/
theorem sip_lower {d k cbs : Nat} {m : Mesh P K} (h : MeshOk d k cbs m) (hP : PosMesh d k m) {C ε eta : K} (he : 0 < ε)
    (hC : TraceBound d k m C) (X : Nat → Nat → K) :
    (1 - C / ε) * ∑ a ∈ range m.ncells, cellForm d k m X X a + (eta - ε) * ∑ f ∈ range m.nfaces, jumpSq d k m X f ≤
      sipForm d k eta m X X := by
  have hface : ∀ f ∈ range m.nfaces, (eta - ε) * jumpSq d k m X f - 1 / ε * ((sides m f).map fun s =>
      (m.face f).diam * quad ((m.face f).integrate (2 * k)) fun x => dot d (grd k m X s.1 x) s.2 ^ 2).sum ≤
      faceForm d k eta m X X f := by
    intro f hf
    have hd := hP.diam f (mem_range.1 hf)
    have hw := hP.faceWeights f (mem_range.1 hf)
    have := quad_mono (g := fun x => 2 * dot d (jump k m f X x) (avg k m f X x)) (g' := fun x =>
      ε / (m.face f).diam * dot d (jump k m f X x) (jump k m f X x) +
      ((sides m f).map fun s => (m.face f).diam / ε * dot d (grd k m X s.1 x) s.2 ^ 2).sum) hw
      fun q _ => face_young (k := k) h f he hd X q.pt
    rw [quad_mul, quad_add, quad_mul, quad_listSum] at this
    have e1 : ((sides m f).map fun s => quad ((m.face f).integrate (2 * k)) fun x =>
        (m.face f).diam / ε * dot d (grd k m X s.1 x) s.2 ^ 2).sum = 1 / ε * ((sides m f).map fun s =>
      (m.face f).diam * quad ((m.face f).integrate (2 * k)) fun x => dot d (grd k m X s.1 x) s.2 ^ 2).sum := by
      rw [← list_smul]
      exact congrArg List.sum (List.map_congr_left fun s _ => by rw [quad_mul]; ring)
    rw [e1] at this
    have e2 : faceForm d k eta m X X f = eta / (m.face f).diam * (quad ((m.face f).integrate (2 * k)) fun x =>
        dot d (jump k m f X x) (jump k m f X x)) - 2 * quad ((m.face f).integrate (2 * k)) fun x =>
        dot d (jump k m f X x) (avg k m f X x) := by
      unfold faceForm
      rw [← quad_mul, ← quad_mul, ← quad_sub]
      exact quad_congr fun q _ => by rw [dot_comm d (avg k m f X q.pt)]; ring
    rw [e2]
    have e3 : (eta - ε) * jumpSq d k m X f = eta / (m.face f).diam * (quad ((m.face f).integrate (2 * k)) fun x =>
        dot d (jump k m f X x) (jump k m f X x)) - ε / (m.face f).diam * (quad ((m.face f).integrate (2 * k)) fun x =>
        dot d (jump k m f X x) (jump k m f X x)) := by
      unfold jumpSq; ring
    rw [e3]
    linarith
  have hsum := sum_le_sum hface
  rw [sum_sub_distrib, ← mul_sum, ← mul_sum, sum_sides h fun f s => (m.face f).diam *
    quad ((m.face f).integrate (2 * k)) fun x => dot d (grd k m X s.1 x) s.2 ^ 2] at hsum
  have htr : ∑ a ∈ range m.ncells, ((m.cell a).fcs.map fun q => (m.face q.1).diam *
      quad ((m.face q.1).integrate (2 * k)) fun x => dot d (grd k m X a x) q.2 ^ 2).sum ≤
      C * ∑ a ∈ range m.ncells, cellForm d k m X X a := by
    rw [mul_sum]
    exact sum_le_sum fun a ha => hC a (mem_range.1 ha) (X a)
  have h1 := mul_le_mul_of_nonneg_left htr (one_div_pos.2 he).le
  unfold sipForm
  have e4 : (1 - C / ε) * ∑ a ∈ range m.ncells, cellForm d k m X X a = ∑ a ∈ range m.ncells, cellForm d k m X X a -
      1 / ε * (C * ∑ a ∈ range m.ncells, cellForm d k m X X a) := by ring
  rw [e4]
  linarith

theorem cellForm_nonneg {d k : Nat} {m : Mesh P K} (hP : PosMesh d k m) (X : Nat → Nat → K) :
    ∀ a ∈ range m.ncells, 0 ≤ cellForm d k m X X a := fun a ha =>
  quad_nonneg (hP.weights a (mem_range.1 ha)) fun _ _ => dot_self_nonneg _ _

theorem jumpSq_nonneg {d k : Nat} {m : Mesh P K} (hP : PosMesh d k m) (X : Nat → Nat → K) :
    ∀ f ∈ range m.nfaces, 0 ≤ jumpSq d k m X f := fun f hf =>
  mul_nonneg (one_div_pos.2 (hP.diam f (mem_range.1 hf))).le
    (quad_nonneg (hP.faceWeights f (mem_range.1 hf)) fun _ _ => dot_self_nonneg _ _)

theorem sip_nonneg {d k cbs : Nat} {m : Mesh P K} (h : MeshOk d k cbs m) (hP : PosMesh d k m) {C eta : K} (h0 : 0 ≤ C)
    (hC : TraceBound d k m C) (he : C < eta) (X : Nat → Nat → K) : 0 ≤ sipForm d k eta m X X ∧
      (sipForm d k eta m X X = 0 → (∀ a < m.ncells, cellForm d k m X X a = 0) ∧
        ∀ f < m.nfaces, jumpSq d k m X f = 0) := by
  have hε : 0 < (C + eta) / 2 := by linarith
  have hl := sip_lower (eta := eta) h hP hε hC X
  have h1 : 0 < 1 - C / ((C + eta) / 2) := by
    rw [sub_pos, div_lt_one hε]; linarith
  have h2 : 0 < eta - (C + eta) / 2 := by linarith
  have p1 := sum_nonneg (cellForm_nonneg hP X)
  have p2 := sum_nonneg (jumpSq_nonneg hP X)
  have q1 := mul_nonneg h1.le p1
  have q2 := mul_nonneg h2.le p2
  refine ⟨by linarith, fun hz => ?_⟩
  have z1 : (1 - C / ((C + eta) / 2)) * ∑ a ∈ range m.ncells, cellForm d k m X X a = 0 := by linarith
  have z2 : (eta - (C + eta) / 2) * ∑ f ∈ range m.nfaces, jumpSq d k m X f = 0 := by linarith
  have z1 := (mul_eq_zero.1 z1).resolve_left h1.ne'
  have z2 := (mul_eq_zero.1 z2).resolve_left h2.ne'
  exact ⟨fun a ha => (sum_eq_zero_iff_of_nonneg (cellForm_nonneg hP X)).1 z1 a (mem_range.2 ha),
    fun f hf => (sum_eq_zero_iff_of_nonneg (jumpSq_nonneg hP X)).1 z2 f (mem_range.2 hf)⟩

theorem linked_zero {d k cbs : Nat} {m : Mesh P K} (h : MeshOk d k cbs m) (hP : PosMesh d k m) {X : Nat → Nat → K}
    (hv : ∀ a < m.ncells, ∀ x, Spec.Dg.val k m X a x = X a 0) (hj : ∀ f < m.nfaces, jumpSq d k m X f = 0) {a : Nat}
    (hl : Linked m a) : a < m.ncells → X a 0 = 0 := by
  have key : ∀ f < m.nfaces, ∀ c : K, (∀ x, dot d (jump k m f X x) (jump k m f X x) = c ^ 2) → c = 0 := by
    intro f hf c hc
    have := hj f hf
    unfold jumpSq at this
    rw [show (fun x => dot d (jump k m f X x) (jump k m f X x)) = fun x => c ^ 2 * (fun _ => 1) x from
      funext fun x => by rw [hc x, mul_one], quad_mul] at this
    have h1 := (mul_eq_zero.1 this).resolve_left (one_div_pos.2 (hP.diam f hf)).ne'
    exact pow_eq_zero_iff (two_ne_zero) |>.1 ((mul_eq_zero.1 h1).resolve_right (hP.measure f hf))
  induction hl with
  | @boundary a q hq h1 =>
    intro ha
    have hs : (a, q.2) ∈ sides m q.1 := mem_sides.2 ⟨ha, hq⟩
    obtain ⟨s, e⟩ := List.length_eq_one_iff.1 h1
    have hs' : (a, q.2) = s := by rw [e] at hs; simpa using hs
    subst hs'
    refine key q.1 (h.range a ha q hq) _ fun x => ?_
    rw [(jump_single e (h.unit a ha q hq) X x).1, hv a ha]
  | @step a b q r hb _ hq hr hqr ih =>
    intro ha
    have hb0 := ih hb
    by_cases hab : a = b
    · rw [hab]; exact hb0
    · have hs : (a, q.2) ∈ sides m q.1 := mem_sides.2 ⟨ha, hq⟩
      have ht : (b, r.2) ∈ sides m q.1 := mem_sides.2 ⟨hb, by rw [hqr]; exact hr⟩
      have hf := h.range a ha q hq
      have e := eq_pair (h.two _) hs ht fun e => hab (congrArg Prod.fst e)
      rcases e with e | e
      · refine key q.1 hf _ fun x => ?_
        rw [(jump_pair e (h.unit a ha q hq) (h.opposite a ha b hb hab q hq r hr hqr) X x).1, hv a ha, hv b hb, hb0,
          sub_zero]
      · refine neg_eq_zero.1 (key q.1 hf _ fun x => ?_)
        rw [(jump_pair e (h.unit b hb r hr) (h.opposite b hb a ha (Ne.symm hab) r hr q hq hqr.symm) X x).1, hv a ha,
          hv b hb, hb0, zero_sub]

/-- The form is definite. -/
theorem sip_definite {d k cbs : Nat} {m : Mesh P K} (h : MeshOk d k cbs m) (hP : PosMesh d k m) {C eta : K} (h0 : 0 ≤ C)
    (hC : TraceBound d k m C) (he : C < eta) {X : Nat → Nat → K} (hz : sipForm d k eta m X X = 0) {a j : Nat}
    (ha : a < m.ncells) (hj : j < cbs) : X a j = 0 := by
  obtain ⟨hc, hf⟩ := (sip_nonneg h hP h0 hC he X).2 hz
  have tail : ∀ a < m.ncells, ∀ j, 0 < j → j < cbs → X a j = 0 := by
    intro a ha j h1 h2
    exact hP.const a ha (X a) (hc a ha) j h1 (by rw [h.size a ha]; exact h2)
  have hv : ∀ a < m.ncells, ∀ x, Spec.Dg.val k m X a x = X a 0 := by
    intro a ha x
    unfold Spec.Dg.val evalFn
    rw [h.size a ha, sum_eq_single 0, hP.one a ha, mul_one]
    · intro j hj hne
      rw [tail a ha j (Nat.pos_of_ne_zero hne) (mem_range.1 hj), zero_mul]
    · intro h'
      exact absurd (mem_range.2 h.pos) h'
  rcases Nat.eq_zero_or_pos j with rfl | hp
  · exact linked_zero h hP hv hf (hP.linked a ha) ha
  · exact tail a ha j hp hj

end Verif.Lemmas.Dg
