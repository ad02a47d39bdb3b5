import Verif.Model.Polygon
import Mathlib.Tactic.Ring
import Mathlib.Tactic.Linarith
import Mathlib.Tactic.LinearCombination
import Mathlib.Tactic.FieldSimp
import Mathlib.Algebra.Order.BigOperators.Group.List
/-!
Helper lemmas for polygons.
-/
set_option linter.unusedSectionVars false
namespace Verif.Polygon
open Verif.Spec

variable {K : Type}

section field
variable [Field K] [LinearOrder K] [IsStrictOrderedRing K]

theorem rd_eq (pts : List (P2 K)) (i : Nat) (h : i < pts.length) : rd pts i = pts[i] := by
  simp [rd, h]

theorem range_eq_sides (pts : List (P2 K)) :
    (List.range pts.length).map (fun i => (rd pts i, rd pts ((i + 1) % pts.length))) = sides pts := by
  apply List.ext_getElem
  · simp [sides]
  · intro i h1 h2
    have hi : i < pts.length := by simpa using h1
    have hj : (i + 1) % pts.length < pts.length := Nat.mod_lt _ (by omega)
    simp [sides, List.getElem_rotate, rd_eq _ _ hi, rd_eq _ _ hj]

theorem sides_fst (pts : List (P2 K)) : (sides pts).map Prod.fst = pts := by
  simp [sides, List.map_fst_zip]

theorem sides_snd (pts : List (P2 K)) : (sides pts).map Prod.snd = pts.rotate 1 := by
  simp [sides, List.map_snd_zip]

theorem mem_sides {pts : List (P2 K)} {e : P2 K × P2 K} (h : e ∈ sides pts) : e.1 ∈ pts ∧ e.2 ∈ pts := by
  constructor
  · rw [← sides_fst pts]; exact List.mem_map_of_mem h
  · have := List.mem_map_of_mem (f := Prod.snd) h
    rw [sides_snd] at this
    simpa using this

theorem sum_sub_map {α : Type} (l : List α) (f g : α → K) :
    (l.map fun e => f e - g e).sum = (l.map f).sum - (l.map g).sum := by
  induction l with
  | nil => simp
  | cons a l ih => simp only [List.map_cons, List.sum_cons, ih]; ring

theorem sum_add_map {α : Type} (l : List α) (f g : α → K) :
    (l.map fun e => f e + g e).sum = (l.map f).sum + (l.map g).sum := by
  induction l with
  | nil => simp
  | cons a l ih => simp only [List.map_cons, List.sum_cons, ih]; ring

theorem sum_mul_map {α : Type} (l : List α) (f : α → K) (c : K) :
    (l.map fun e => c * f e).sum = c * (l.map f).sum := by
  induction l with
  | nil => simp
  | cons a l ih => simp only [List.map_cons, List.sum_cons, ih]; ring

theorem sum_telescope (pts : List (P2 K)) (g : P2 K → K) :
    ((sides pts).map fun e => g e.2 - g e.1).sum = 0 := by
  have h2 : (sides pts).map (fun e => g e.2) = (pts.rotate 1).map g := by
    rw [← sides_snd, List.map_map]; rfl
  have h1 : (sides pts).map (fun e => g e.1) = pts.map g := by
    conv_rhs => rw [← sides_fst pts, List.map_map]
    rfl
  rw [sum_sub_map, h2, h1, ((List.rotate_perm pts 1).map g).sum_eq, sub_self]

theorem shoelace_turn (pts : List (P2 K)) (o : P2 K) :
    ((sides pts).map fun e => turn o e.1 e.2).sum = shoelace pts := by
  have h := sum_telescope pts (fun p => p.x * o.y - o.x * p.y)
  have e1 : (sides pts).map (fun e => turn o e.1 e.2)
      = (sides pts).map (fun e => (e.1.x * e.2.y - e.2.x * e.1.y) +
          ((e.2.x * o.y - o.x * e.2.y) - (e.1.x * o.y - o.x * e.1.y))) := by
    apply List.map_congr_left
    intro e _
    simp only [turn]; ring
  rw [e1, sum_add_map, h, add_zero]; rfl

theorem turn_rot (a b c : P2 K) : turn a b c = turn b c a := by simp only [turn]; ring

theorem foldl_add {α : Type} (l : List α) (f : α → K) (a : K) :
    l.foldl (fun s e => s + f e) a = a + (l.map f).sum := by
  induction l generalizing a with
  | nil => simp
  | cons b l ih => simp only [List.foldl_cons, List.map_cons, List.sum_cons, ih]; ring

theorem foldl_add3 {α : Type} (l : List α) (f g h : α → K) (a : K × K × K) :
    l.foldl (fun s e => (s.1 + f e, s.2.1 + g e, s.2.2 + h e)) a
      = (a.1 + (l.map f).sum, a.2.1 + (l.map g).sum, a.2.2 + (l.map h).sum) := by
  induction l generalizing a with
  | nil => simp
  | cons b l ih => simp only [List.foldl_cons, List.map_cons, List.sum_cons, ih, ← add_assoc]

theorem barySums_eq (pts : List (P2 K)) :
    barySums pts = (((sides pts).map fun e => (e.1.x + e.2.x) * (e.1.x * e.2.y - e.2.x * e.1.y)).sum,
      ((sides pts).map fun e => (e.1.y + e.2.y) * (e.1.x * e.2.y - e.2.x * e.1.y)).sum,
      1 / 2 * shoelace pts) := by
  have h := foldl_add3 (sides pts) (fun e => (e.1.x + e.2.x) * (e.1.x * e.2.y - e.2.x * e.1.y))
    (fun e => (e.1.y + e.2.y) * (e.1.x * e.2.y - e.2.x * e.1.y))
    (fun e => 1 / 2 * (e.1.x * e.2.y - e.2.x * e.1.y)) (0, 0, 0)
  rw [sum_mul_map] at h
  simp only [zero_add] at h
  rw [← range_eq_sides, List.foldl_map, range_eq_sides] at h
  unfold shoelace
  exact h

theorem moment_x (pts : List (P2 K)) (o : P2 K) :
    ((sides pts).map fun e => turn o e.1 e.2 * (o.x + e.1.x + e.2.x)).sum
      = ((sides pts).map fun e => (e.1.x + e.2.x) * (e.1.x * e.2.y - e.2.x * e.1.y)).sum := by
  have h := sum_telescope pts (fun q => -((o.x * q.y - q.x * o.y) * (o.x + q.x)))
  have e1 : (sides pts).map (fun e => turn o e.1 e.2 * (o.x + e.1.x + e.2.x))
      = (sides pts).map (fun e => (e.1.x + e.2.x) * (e.1.x * e.2.y - e.2.x * e.1.y) +
          (-((o.x * e.2.y - e.2.x * o.y) * (o.x + e.2.x)) - -((o.x * e.1.y - e.1.x * o.y) * (o.x + e.1.x)))) := by
    apply List.map_congr_left
    intro e _
    simp only [turn]; ring
  rw [e1, sum_add_map, h, add_zero]

theorem moment_y (pts : List (P2 K)) (o : P2 K) :
    ((sides pts).map fun e => turn o e.1 e.2 * (o.y + e.1.y + e.2.y)).sum
      = ((sides pts).map fun e => (e.1.y + e.2.y) * (e.1.x * e.2.y - e.2.x * e.1.y)).sum := by
  have h := sum_telescope pts (fun q => -((o.x * q.y - q.x * o.y) * (o.y + q.y)))
  have e1 : (sides pts).map (fun e => turn o e.1 e.2 * (o.y + e.1.y + e.2.y))
      = (sides pts).map (fun e => (e.1.y + e.2.y) * (e.1.x * e.2.y - e.2.x * e.1.y) +
          (-((o.x * e.2.y - e.2.x * o.y) * (o.y + e.2.y)) - -((o.x * e.1.y - e.1.x * o.y) * (o.y + e.1.y)))) := by
    apply List.map_congr_left
    intro e _
    simp only [turn]; ring
  rw [e1, sum_add_map, h, add_zero]

/-- Three times the shoelace sum times the position of the barycenter relative to a line. -/
theorem turn_barycenter (pts : List (P2 K)) (hA : shoelace pts ≠ 0) (p q : P2 K) :
    3 * shoelace pts * turn p q (barycenter pts)
      = ((sides pts).map fun e => turn p e.1 e.2 * (turn p q e.1 + turn p q e.2)).sum := by
  have hx := moment_x pts p
  have hy := moment_y pts p
  have hs := shoelace_turn pts p
  have e1 : (sides pts).map (fun e => turn p e.1 e.2 * (turn p q e.1 + turn p q e.2))
      = (sides pts).map (fun e => ((q.x - p.x) * (turn p e.1 e.2 * (p.y + e.1.y + e.2.y)) -
          (q.y - p.y) * (turn p e.1 e.2 * (p.x + e.1.x + e.2.x))) +
          (3 * ((q.y - p.y) * p.x - (q.x - p.x) * p.y)) * turn p e.1 e.2) := by
    apply List.map_congr_left
    intro e _
    simp only [turn]; ring
  rw [e1, sum_add_map, sum_sub_map, sum_mul_map, sum_mul_map, sum_mul_map, hx, hy, hs]
  simp only [barycenter, barySums_eq, turn]
  have h6 : (6 : K) * (1 / 2 * shoelace pts) ≠ 0 := by
    have : (6 : K) * (1 / 2 * shoelace pts) = 3 * shoelace pts := by ring
    rw [this]; exact mul_ne_zero (by norm_num) hA
  have h3 : (3 : K) * shoelace pts = 6 * (1 / 2 * shoelace pts) := by ring
  generalize ((sides pts).map fun e => (e.1.x + e.2.x) * (e.1.x * e.2.y - e.2.x * e.1.y)).sum = X
  generalize ((sides pts).map fun e => (e.1.y + e.2.y) * (e.1.x * e.2.y - e.2.x * e.1.y)).sum = Y
  have hX' : 3 * shoelace pts * (X / (6 * (1 / 2 * shoelace pts))) = X := by rw [h3]; exact mul_div_cancel₀ _ h6
  have hY' : 3 * shoelace pts * (Y / (6 * (1 / 2 * shoelace pts))) = Y := by rw [h3]; exact mul_div_cancel₀ _ h6
  generalize X / (6 * (1 / 2 * shoelace pts)) = U at hX' ⊢
  generalize Y / (6 * (1 / 2 * shoelace pts)) = W at hY' ⊢
  linear_combination (q.x - p.x) * hY' - (q.y - p.y) * hX'

/-- The centre is the mean of the vertices. -/
theorem center_fold (l : List (P2 K)) (a : P2 K) :
    l.foldl (fun a p => (⟨a.x + p.x, a.y + p.y⟩ : P2 K)) a = ⟨a.x + (l.map P2.x).sum, a.y + (l.map P2.y).sum⟩ := by
  induction l generalizing a with
  | nil => simp
  | cons b l ih => simp only [List.foldl_cons, List.map_cons, List.sum_cons, ih, add_assoc]

theorem sum_turn (l : List (P2 K)) (p q : P2 K) :
    (l.map fun v => turn p q v).sum = (q.x - p.x) * ((l.map P2.y).sum - (l.length : K) * p.y)
      - (q.y - p.y) * ((l.map P2.x).sum - (l.length : K) * p.x) := by
  induction l with
  | nil => simp
  | cons a l ih =>
    rw [List.map_cons, List.sum_cons, ih]
    simp only [List.map_cons, List.sum_cons, List.length_cons, turn]
    push_cast; ring

theorem turn_center (pts : List (P2 K)) (h : pts ≠ []) (p q : P2 K) :
    (pts.length : K) * turn p q (center pts) = (pts.map fun v => turn p q v).sum := by
  have hn : (pts.length : K) ≠ 0 := by
    have := List.length_pos_iff.mpr h
    exact_mod_cast (by omega : pts.length ≠ 0)
  rw [sum_turn]
  simp only [center, center_fold, zero_add, turn]
  have hx := mul_div_cancel₀ (pts.map P2.x).sum hn
  have hX : (pts.length : K) * ((pts.map P2.x).sum / (pts.length : K)) = (pts.map P2.x).sum := mul_div_cancel₀ _ hn
  have hY : (pts.length : K) * ((pts.map P2.y).sum / (pts.length : K)) = (pts.map P2.y).sum := mul_div_cancel₀ _ hn
  generalize (pts.map P2.x).sum / (pts.length : K) = U at hX ⊢
  generalize (pts.map P2.y).sum / (pts.length : K) = W at hY ⊢
  linear_combination (q.x - p.x) * hY - (q.y - p.y) * hX

theorem turn_center_nonneg (pts : List (P2 K)) (p q : P2 K) (h : pts ≠ []) (hc : ∀ v ∈ pts, 0 ≤ turn p q v) :
    0 ≤ turn p q (center pts) := by
  have h1 := turn_center pts h p q
  have h2 : 0 ≤ (pts.map fun v => turn p q v).sum := by
    apply List.sum_nonneg
    intro x hx
    obtain ⟨v, hv, rfl⟩ := List.mem_map.mp hx
    exact hc v hv
  have hn : (0 : K) < pts.length := by exact_mod_cast List.length_pos_iff.mpr h
  rw [← h1] at h2
  exact nonneg_of_mul_nonneg_right h2 hn

theorem fan_eq (pts : List (P2 K)) : fan pts = (sides pts).map fun e => (e.1, e.2, center pts) := by
  rw [← range_eq_sides, List.map_map]; rfl

theorem zero_of_sum_zero (l : List K) (h : ∀ x ∈ l, 0 ≤ x) (h0 : l.sum = 0) : ∀ x ∈ l, x = 0 := by
  induction l with
  | nil => simp
  | cons a l ih =>
    have ha := h a (by simp)
    have hl := List.sum_nonneg (fun x hx => h x (List.mem_cons_of_mem a hx))
    rw [List.sum_cons] at h0
    intro x hx
    rcases List.mem_cons.mp hx with rfl | hx
    · linarith
    · exact ih (fun x hx => h x (List.mem_cons_of_mem a hx)) (by linarith) x hx

/-- In a convex polygon of nonzero area the barycenter is strictly inside. -/
theorem star_of_convex (pts : List (P2 K)) (hc : ConvexCCW pts) (hd : ∀ e ∈ sides pts, e.1 ≠ e.2)
    (hA : shoelace pts ≠ 0) : StarFrom (barycenter pts) pts := by
  intro e he
  obtain ⟨hp, hq⟩ := mem_sides he
  obtain ⟨p, q⟩ := e
  have hkey := turn_barycenter pts hA p q
  -- triangles seen from a vertex have nonnegative area
  have hT : ∀ f ∈ sides pts, 0 ≤ turn p f.1 f.2 := by
    intro f hf
    rw [turn_rot]; exact hc f hf p hp
  have hF : ∀ v ∈ pts, 0 ≤ turn p q v := fun v hv => hc (p, q) he v hv
  have hpos : 0 < shoelace pts := by
    refine lt_of_le_of_ne ?_ (Ne.symm hA)
    rw [← shoelace_turn pts p]
    apply List.sum_nonneg
    intro x hx
    obtain ⟨f, hf, rfl⟩ := List.mem_map.mp hx
    exact hT f hf
  have hterm : ∀ x ∈ (sides pts).map (fun f => turn p f.1 f.2 * (turn p q f.1 + turn p q f.2)), 0 ≤ x := by
    intro x hx
    obtain ⟨f, hf, rfl⟩ := List.mem_map.mp hx
    obtain ⟨h1, h2⟩ := mem_sides hf
    exact mul_nonneg (hT f hf) (add_nonneg (hF _ h1) (hF _ h2))
  have hsum : ((sides pts).map fun f => turn p f.1 f.2 * (turn p q f.1 + turn p q f.2)).sum ≠ 0 := by
    intro h0
    apply hA
    rw [← shoelace_turn pts p]
    apply List.sum_eq_zero
    intro x hx
    obtain ⟨f, hf, rfl⟩ := List.mem_map.mp hx
    have hz : turn p f.1 f.2 * (turn p q f.1 + turn p q f.2) = 0 :=
      zero_of_sum_zero _ hterm h0 _ (List.mem_map_of_mem (f := fun f : P2 K × P2 K =>
        turn p f.1 f.2 * (turn p q f.1 + turn p q f.2)) hf)
    rcases mul_eq_zero.mp hz with hz | hz
    · exact hz
    · obtain ⟨h1, h2⟩ := mem_sides hf
      have a1 := hF _ h1
      have a2 := hF _ h2
      have z1 : turn p q f.1 = 0 := by linarith
      have z2 : turn p q f.2 = 0 := by linarith
      -- `p`, `f.1`, `f.2` are on one line through `p` with direction `q - p ≠ 0`
      have hne := hd (p, q) he
      obtain ⟨px, py⟩ := p
      obtain ⟨qx, qy⟩ := q
      obtain ⟨⟨ax, ay⟩, ⟨bx, bY⟩⟩ := f
      simp only [turn] at z1 z2 ⊢
      have hxy : qx - px ≠ 0 ∨ qy - py ≠ 0 := by
        by_contra hcon
        push Not at hcon
        apply hne
        simp only [P2.mk.injEq]
        exact ⟨by linarith [hcon.1], by linarith [hcon.2]⟩
      rcases hxy with h | h
      · apply mul_left_cancel₀ h
        linear_combination (ax - px) * z2 - (bx - px) * z1
      · apply mul_left_cancel₀ h
        linear_combination (ay - py) * z2 - (bY - py) * z1
  have hsum' : 0 < ((sides pts).map fun f => turn p f.1 f.2 * (turn p q f.1 + turn p q f.2)).sum :=
    lt_of_le_of_ne (List.sum_nonneg hterm) (Ne.symm hsum)
  rw [← hkey] at hsum'
  exact (mul_pos_iff_of_pos_left (by linarith)).mp hsum'

theorem isConvex_iff (pts : List (P2 K)) (h : pts.length ≠ 3) : isConvex pts = true ↔
    ∀ i < pts.length, 0 ≤ turn (rd pts i) (rd pts ((i + 1) % pts.length)) (rd pts ((i + 2) % pts.length)) := by
  unfold isConvex
  rw [if_neg h, List.all_eq_true]
  simp only [List.mem_range, Bool.not_eq_true', decide_eq_false_iff_not, not_lt]
  refine forall_congr' fun i => forall_congr' fun _ => ?_
  have : turn (rd pts i) (rd pts ((i + 1) % pts.length)) (rd pts ((i + 2) % pts.length))
    = ((rd pts ((i + 1) % pts.length)).x - (rd pts i).x) * ((rd pts ((i + 2) % pts.length)).y - (rd pts ((i + 1) % pts.length)).y)
    - ((rd pts ((i + 1) % pts.length)).y - (rd pts i).y) * ((rd pts ((i + 2) % pts.length)).x - (rd pts ((i + 1) % pts.length)).x) := by
    simp only [turn]; ring
  rw [this]

end field

section real

theorem norm_nonneg (x y : ℝ) : 0 ≤ norm x y := Real.sqrt_nonneg _
theorem norm_sq (x y : ℝ) : norm x y * norm x y = x * x + y * y :=
  Real.mul_self_sqrt (by nlinarith [mul_self_nonneg x, mul_self_nonneg y])
theorem norm_neg_swap (x y : ℝ) : norm (-y) x = norm x y := by
  unfold norm; congr 1; ring
theorem norm_eq_zero (x y : ℝ) (h : norm x y = 0) : x = 0 ∧ y = 0 := by
  have h1 := norm_sq x y
  rw [h] at h1
  constructor <;> nlinarith [mul_self_nonneg x, mul_self_nonneg y]

/-- The contribution of one face to the measure. -/
noncomputable def term (c p q : P2 ℝ) : ℝ :=
  norm (q.x - p.x) (q.y - p.y) *
      ((p.x + q.x) / 2 * (normal c p q).1 / 2 + (p.y + q.y) / 2 * (normal c p q).2 / 2)

theorem dot_out (c p q : P2 ℝ) :
    -(q.y - p.y) * ((p.x + q.x) / 2 - c.x) + (q.x - p.x) * ((p.y + q.y) / 2 - c.y) = -turn p q c := by
  simp only [turn]; ring

theorem term_pos (c p q : P2 ℝ) (h : 0 < turn p q c) : term c p q = (p.x * q.y - q.x * p.y) / 2 := by
  have hne : norm (q.x - p.x) (q.y - p.y) ≠ 0 := by
    intro h0
    obtain ⟨hx, hy⟩ := norm_eq_zero _ _ h0
    simp only [turn, hx, hy] at h
    linarith
  have hn : norm (-(q.y - p.y)) (q.x - p.x) = norm (q.x - p.x) (q.y - p.y) := norm_neg_swap _ _
  unfold term normal
  simp only [dot_out, hn]
  have hlt : -turn p q c < 0 := by linarith
  rw [if_pos hlt]
  generalize norm (q.x - p.x) (q.y - p.y) = N at hne
  simp only
  field_simp
  ring

theorem term_neg (c p q : P2 ℝ) (h : turn p q c < 0) : term c p q = -((p.x * q.y - q.x * p.y) / 2) := by
  have hne : norm (q.x - p.x) (q.y - p.y) ≠ 0 := by
    intro h0
    obtain ⟨hx, hy⟩ := norm_eq_zero _ _ h0
    simp only [turn, hx, hy] at h
    linarith
  have hn : norm (-(q.y - p.y)) (q.x - p.x) = norm (q.x - p.x) (q.y - p.y) := norm_neg_swap _ _
  unfold term normal
  simp only [dot_out, hn]
  have hlt : ¬ -turn p q c < 0 := by linarith
  rw [if_neg hlt]
  generalize norm (q.x - p.x) (q.y - p.y) = N at hne
  simp only
  field_simp
  ring

theorem turn_swap (p q c : P2 ℝ) : turn q p c = -turn p q c := by simp only [turn]; ring

theorem measure_eq (pts : List (P2 ℝ)) (fcs : List (P2 ℝ × P2 ℝ)) :
    measure pts fcs = (fcs.map fun f => term (barycenter pts) f.1 f.2).sum := by
  have := foldl_add fcs (fun f => term (barycenter pts) f.1 f.2) 0
  rw [zero_add] at this
  exact this

/-- Side lengths only: the product under the root. -/
theorem kahanArg_eq (x y z : ℝ) :
    kahanArg x y z = (x + y + z) * (-x + y + z) * (x - y + z) * (x + y - z) := by
  unfold kahanArg
  simp only
  rcases le_total x y with h1 | h1 <;> rcases le_total y z with h2 | h2 <;> rcases le_total x z with h3 | h3 <;>
    simp only [max_eq_left, max_eq_right, min_eq_left, min_eq_right, h1, h2, h3] <;>
    first
    | ring1
    | (have e1 : x = y := by linarith
       have e2 : y = z := by linarith
       subst e1; subst e2; ring)

theorem triArg_eq (p0 p1 p2 : P2 ℝ) :
    kahanArg (norm (p1.x - p0.x) (p1.y - p0.y)) (norm (p2.x - p0.x) (p2.y - p0.y))
      (norm (p2.x - p1.x) (p2.y - p1.y)) = (2 * turn p0 p1 p2) ^ 2 := by
  rw [kahanArg_eq]
  have hx := norm_sq (p1.x - p0.x) (p1.y - p0.y)
  have hy := norm_sq (p2.x - p0.x) (p2.y - p0.y)
  have hz := norm_sq (p2.x - p1.x) (p2.y - p1.y)
  generalize norm (p1.x - p0.x) (p1.y - p0.y) = X at hx
  generalize norm (p2.x - p0.x) (p2.y - p0.y) = Y at hy
  generalize norm (p2.x - p1.x) (p2.y - p1.y) = Z at hz
  have e : (X + Y + Z) * (-X + Y + Z) * (X - Y + Z) * (X + Y - Z)
      = 2 * ((X * X) * (Y * Y) + (Y * Y) * (Z * Z) + (Z * Z) * (X * X))
        - (X * X) * (X * X) - (Y * Y) * (Y * Y) - (Z * Z) * (Z * Z) := by ring
  rw [e, hx, hy, hz]
  simp only [turn]; ring

theorem triMeasure_eq (p0 p1 p2 : P2 ℝ) : triMeasure p0 p1 p2 = |turn p0 p1 p2| / 2 := by
  unfold triMeasure kahanLengths
  rw [triArg_eq, Real.sqrt_sq_eq_abs, abs_mul, abs_of_pos (by norm_num : (0 : ℝ) < 2)]
  ring

/-- The normal is a unit vector orthogonal to the side. -/
theorem normal_unit (c p q : P2 ℝ) (h : p ≠ q) :
    (normal c p q).1 * (normal c p q).1 + (normal c p q).2 * (normal c p q).2 = 1 ∧
    (normal c p q).1 * (q.x - p.x) + (normal c p q).2 * (q.y - p.y) = 0 := by
  have hn : norm (-(q.y - p.y)) (q.x - p.x) ≠ 0 := by
    intro h0
    obtain ⟨h1, h2⟩ := norm_eq_zero _ _ h0
    exact h (P2.ext (by linarith) (by linarith))
  have hs := norm_sq (-(q.y - p.y)) (q.x - p.x)
  unfold normal
  simp only
  generalize norm (-(q.y - p.y)) (q.x - p.x) = N at hn hs ⊢
  split_ifs
  · constructor
    · rw [div_mul_div_comm, div_mul_div_comm, ← add_div, hs]
      simp only [neg_mul_neg]
      rw [neg_mul_neg] at hs
      rw [div_self]
      rw [← hs]; exact mul_ne_zero hn hn
    · field_simp; ring
  · constructor
    · rw [div_mul_div_comm, div_mul_div_comm, ← add_div, hs, div_self]
      rw [← hs]; exact mul_ne_zero hn hn
    · field_simp; ring

/-- Side of a point with respect to the normal: opposite to that of `c`. -/
theorem normal_side (c p q v : P2 ℝ) :
    (normal c p q).1 * (v.x - p.x) + (normal c p q).2 * (v.y - p.y)
      = (if 0 < turn p q c then -turn p q v else turn p q v) / norm (-(q.y - p.y)) (q.x - p.x) := by
  unfold normal
  simp only [dot_out]
  by_cases h : 0 < turn p q c
  · rw [if_pos (by linarith : -turn p q c < 0), if_pos h]
    simp only [turn]; ring
  · rw [if_neg (by linarith : ¬ -turn p q c < 0), if_neg h]
    simp only [turn]; ring

end real
end Verif.Polygon
