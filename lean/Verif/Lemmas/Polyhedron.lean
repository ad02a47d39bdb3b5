import Verif.Model.Polyhedron
import Verif.Lemmas.GrundMoeller
import Verif.Lemmas.SpaceIntegral
import Mathlib.Tactic.LinearCombination
import Mathlib.Tactic.Linarith
import Mathlib.Tactic.FieldSimp
/-!
Volumes of polyhedra split in tetrahedra, and the rules on them.
-/
namespace Verif.Lemmas.Polyhedron
open Verif Verif.Spec Verif.Polyhedron

section geometry
variable {K : Type} [Field K]

theorem bary_mean (l : List (P3 K)) : bary l = mean3 l := rfl

theorem fan_sides (c : P3 K) (l : List (P3 K)) : fan c l = (sides3 l).map fun e => (c, e) := by
  apply List.ext_getElem
  · simp [fan, sides3]
  · intro i h1 h2
    have hi : i < l.length := by simpa [fan] using h1
    have hm : (i + 1) % l.length < l.length := Nat.mod_lt _ (by omega)
    simp [fan, sides3, List.getElem_rotate, List.getD_eq_getElem?_getD, hi, hm]

theorem volume_vol6 [LinearOrder K] [IsStrictOrderedRing K] (a b c d : P3 K) :
    Simplex.volume a b c d = |vol6 a b c d| / 6 := by
  unfold Simplex.volume Simplex.dot Simplex.cross Simplex.sub vol6
  congr 2; ring

/-- Sum over the sides of an affine function of the apex. -/
theorem vol6_base (z b b' p q : P3 K) : vol6 z b p q - vol6 z b' p q =
    (b.x - b'.x) * ((p.y - z.y) * (q.z - z.z) - (p.z - z.z) * (q.y - z.y)) -
    (b.y - b'.y) * ((p.x - z.x) * (q.z - z.z) - (p.z - z.z) * (q.x - z.x)) +
    (b.z - b'.z) * ((p.x - z.x) * (q.y - z.y) - (p.y - z.y) * (q.x - z.x)) := by
  unfold vol6; ring

theorem sum_rotate (l : List (P3 K)) (g : P3 K → K) : ((sides3 l).map fun e => g e.2 - g e.1).sum = 0 := by
  have h1 : ((sides3 l).map fun e => g e.2).sum = (l.map g).sum := by
    have : (sides3 l).map Prod.snd = l.rotate 1 := List.map_snd_zip (by simp)
    rw [show ((sides3 l).map fun e => g e.2) = ((sides3 l).map Prod.snd).map g by simp, this]
    exact ((List.rotate_perm l 1).map g).sum_eq
  have h2 : ((sides3 l).map fun e => g e.1).sum = (l.map g).sum := by
    have : (sides3 l).map Prod.fst = l := List.map_fst_zip (by simp)
    rw [show ((sides3 l).map fun e => g e.1) = ((sides3 l).map Prod.fst).map g by simp, this]
  have h3 : ∀ m : List (P3 K × P3 K), (m.map fun e => g e.2 - g e.1).sum =
      (m.map fun e => g e.2).sum - (m.map fun e => g e.1).sum := by
    intro m; induction m with
    | nil => simp
    | cons a m ih => simp only [List.map_cons, List.sum_cons, ih]; ring
  rw [h3, h1, h2, sub_self]

theorem det_zero {a b c u₁ u₂ u₃ v₁ v₂ v₃ w₁ w₂ w₃ : K} (hn : ¬(a = 0 ∧ b = 0 ∧ c = 0))
    (hu : a * u₁ + b * u₂ + c * u₃ = 0) (hv : a * v₁ + b * v₂ + c * v₃ = 0) (hw : a * w₁ + b * w₂ + c * w₃ = 0) :
    u₁ * (v₂ * w₃ - v₃ * w₂) - u₂ * (v₁ * w₃ - v₃ * w₁) + u₃ * (v₁ * w₂ - v₂ * w₁) = 0 := by
  by_contra hd
  apply hn
  refine ⟨?_, ?_, ?_⟩
  · refine (mul_eq_zero.1 ?_).resolve_right hd
    linear_combination (v₂ * w₃ - v₃ * w₂) * hu - (u₂ * w₃ - u₃ * w₂) * hv + (u₂ * v₃ - u₃ * v₂) * hw
  · refine (mul_eq_zero.1 ?_).resolve_right hd
    linear_combination (v₃ * w₁ - v₁ * w₃) * hu - (u₃ * w₁ - u₁ * w₃) * hv + (u₃ * v₁ - u₁ * v₃) * hw
  · refine (mul_eq_zero.1 ?_).resolve_right hd
    linear_combination (v₁ * w₂ - v₂ * w₁) * hu - (u₁ * w₂ - u₂ * w₁) * hv + (u₁ * v₂ - u₂ * v₁) * hw

/-- Moving the apex of the fan in the plane of the face does not change the volume. -/
theorem fan_planar (l : List (P3 K)) (n : P3 K) (c : K) (hn : n ≠ ⟨0, 0, 0⟩)
    (hp : ∀ p ∈ l, n.x * p.x + n.y * p.y + n.z * p.z = c) (z b b' : P3 K)
    (hb : n.x * b.x + n.y * b.y + n.z * b.z = c) (hb' : n.x * b'.x + n.y * b'.y + n.z * b'.z = c) :
    ((sides3 l).map fun e => vol6 z b e.1 e.2).sum = ((sides3 l).map fun e => vol6 z b' e.1 e.2).sum := by
  have hn' : ¬(n.x = 0 ∧ n.y = 0 ∧ n.z = 0) := fun h => hn (by ext <;> simp [h.1, h.2.1, h.2.2])
  have mem : ∀ e ∈ sides3 l, e.1 ∈ l ∧ e.2 ∈ l := by
    intro e he
    have h1 : e.1 ∈ (sides3 l).map Prod.fst := List.mem_map_of_mem he
    have h2 : e.2 ∈ (sides3 l).map Prod.snd := List.mem_map_of_mem he
    rw [show (sides3 l).map Prod.fst = l from List.map_fst_zip (by simp)] at h1
    rw [show (sides3 l).map Prod.snd = l.rotate 1 from List.map_snd_zip (by simp)] at h2
    exact ⟨h1, by simpa using h2⟩
  -- the difference of the terms is the difference of a function at the ends of the side
  let g : P3 K → K := fun p => (b.x - b'.x) * ((z.y - b'.y) * (z.z - p.z) - (z.z - b'.z) * (z.y - p.y)) -
        (b.y - b'.y) * ((z.x - b'.x) * (z.z - p.z) - (z.z - b'.z) * (z.x - p.x)) +
        (b.z - b'.z) * ((z.x - b'.x) * (z.y - p.y) - (z.y - b'.y) * (z.x - p.x))
  have key : ∀ e ∈ sides3 l, vol6 z b e.1 e.2 - vol6 z b' e.1 e.2 = g e.2 - g e.1 := by
    intro e he
    have h1 := hp _ (mem e he).1
    have h2 := hp _ (mem e he).2
    have d := det_zero (u₁ := b.x - b'.x) (u₂ := b.y - b'.y) (u₃ := b.z - b'.z)
      (v₁ := e.1.x - b'.x) (v₂ := e.1.y - b'.y) (v₃ := e.1.z - b'.z)
      (w₁ := e.2.x - b'.x) (w₂ := e.2.y - b'.y) (w₃ := e.2.z - b'.z) hn'
      (by linear_combination hb - hb') (by linear_combination h1 - hb') (by linear_combination h2 - hb')
    rw [vol6_base]
    simp only [g]
    linear_combination d
  have h3 : ∀ m : List (P3 K × P3 K), ∀ f g : P3 K × P3 K → K, (m.map fun e => f e - g e).sum =
      (m.map f).sum - (m.map g).sum := by
    intro m f g; induction m with
    | nil => simp
    | cons a m ih => simp only [List.map_cons, List.sum_cons, ih]; ring
  rw [← sub_eq_zero, ← h3, List.map_congr_left key]
  exact sum_rotate l g

theorem vol6_swap (z b p q : P3 K) : vol6 z b q p = -vol6 z b p q := by unfold vol6; ring

theorem sum_map_sub {A : Type} (m : List A) (f g : A → K) :
    (m.map fun e => f e - g e).sum = (m.map f).sum - (m.map g).sum := by
  induction m with
  | nil => simp
  | cons a m ih => simp only [List.map_cons, List.sum_cons, ih]; ring

theorem sum_map_neg' {A : Type} (m : List A) (f : A → K) : (m.map fun e => -f e).sum = -(m.map f).sum := by
  induction m with
  | nil => simp
  | cons a m ih => simp only [List.map_cons, List.sum_cons, ih]; ring

theorem outSides_sum (f : List (P3 K) × Bool) (g : P3 K → P3 K → K) (hg : ∀ p q, g q p = -g p q) :
    ((outSides f).map fun e => g e.1 e.2).sum =
      if f.2 then ((sides3 f.1).map fun e => g e.1 e.2).sum else -((sides3 f.1).map fun e => g e.1 e.2).sum := by
  unfold outSides
  split_ifs
  · rfl
  · rw [List.map_map, ← sum_map_neg']
    congr 2; funext e; exact hg _ _

theorem outSides_rotate (f : List (P3 K) × Bool) (g : P3 K → K) :
    ((outSides f).map fun e => g e.2 - g e.1).sum = 0 := by
  have := outSides_sum f (fun p q => g q - g p) (by intros; ring)
  rw [this, sum_rotate]; simp

/-- The signed volume does not depend on the point it is seen from. -/
theorem surfVol_eq (h2 : (2 : K) ≠ 0) (z z' : P3 K) (fs : List (List (P3 K) × Bool)) (hc : ClosedSurface fs) :
    surfVol z fs = surfVol z' fs := by
  let G : P3 K → P3 K → K := fun p q => (z'.x - z.x) * (p.y * q.z - p.z * q.y) - (z'.y - z.y) * (p.x * q.z - p.z * q.x) +
    (z'.z - z.z) * (p.x * q.y - p.y * q.x)
  have hG : ∀ p q, G q p = -G p q := by intro p q; simp only [G]; ring
  have key : ∀ b p q : P3 K, vol6 z b p q - vol6 z' b p q = G p q + (G q b - G p b) := by
    intro b p q; simp only [G]; unfold vol6; ring
  have face : ∀ f : List (P3 K) × Bool, ((outSides f).map fun e => vol6 z (f.1.headD ⟨0, 0, 0⟩) e.1 e.2).sum -
      ((outSides f).map fun e => vol6 z' (f.1.headD ⟨0, 0, 0⟩) e.1 e.2).sum =
      ((outSides f).map fun e => G e.1 e.2).sum := by
    intro f
    have r := outSides_rotate f fun p => G p (f.1.headD ⟨0, 0, 0⟩)
    rw [← sum_map_sub]
    simp only [key]
    rw [List.sum_map_add, r, add_zero]
  have tot : (fs.map fun f => ((outSides f).map fun e => G e.1 e.2).sum).sum = 0 := by
    have e : (fs.map fun f => ((outSides f).map fun e => G e.1 e.2).sum).sum =
        ((fs.flatMap outSides).map fun e => G e.1 e.2).sum := by
      clear hc face
      induction fs with
      | nil => rfl
      | cons f fs ih => simp only [List.map_cons, List.sum_cons, ih, List.flatMap_cons, List.map_append, List.sum_append]
    have p := (hc.map fun e => G e.1 e.2).sum_eq
    rw [List.map_map] at p
    have e2 : ((fun e : P3 K × P3 K => G e.1 e.2) ∘ Prod.swap) = fun e => -G e.1 e.2 := by
      funext e; exact hG _ _
    rw [e2, sum_map_neg'] at p
    rw [e]
    have h0 : (2 : K) * ((fs.flatMap outSides).map fun e => G e.1 e.2).sum = 0 := by linear_combination p
    exact (mul_eq_zero.1 h0).resolve_left h2
  unfold surfVol
  rw [← sub_eq_zero, ← sub_div, ← sum_map_sub]
  simp only [face]
  rw [tot, zero_div]

theorem linear_mean (l : List (P3 K)) (h : (l.length : K) ≠ 0) (a b c d : K) :
    a * (mean3 l).x + b * (mean3 l).y + c * (mean3 l).z + d =
      (l.map fun p => a * p.x + b * p.y + c * p.z + d).sum / l.length := by
  have e : ∀ l : List (P3 K), (l.map fun p => a * p.x + b * p.y + c * p.z + d).sum =
      a * (l.map (·.x)).sum + b * (l.map (·.y)).sum + c * (l.map (·.z)).sum + d * l.length := by
    intro l; induction l with
    | nil => simp
    | cons p l ih => simp only [List.map_cons, List.sum_cons, List.length_cons, ih]; push_cast; ring
  rw [e]
  unfold mean3
  field_simp

variable [LinearOrder K] [IsStrictOrderedRing K]

theorem mean_nonneg (l : List (P3 K)) (h : l ≠ []) (a b c d : K) (hp : ∀ p ∈ l, 0 ≤ a * p.x + b * p.y + c * p.z + d) :
    0 ≤ a * (mean3 l).x + b * (mean3 l).y + c * (mean3 l).z + d := by
  have hl : (0 : K) < l.length := by exact_mod_cast List.length_pos_iff.2 h
  rw [linear_mean l hl.ne']
  refine div_nonneg (List.sum_nonneg ?_) hl.le
  simpa using hp

omit [LinearOrder K] [IsStrictOrderedRing K] in
theorem vol6_fst (v q r : P3 K) : ∃ a b c d : K, ∀ p : P3 K, vol6 p v q r = a * p.x + b * p.y + c * p.z + d := by
  refine ⟨-((q.y - v.y) * (r.z - v.z) - (q.z - v.z) * (r.y - v.y)), (q.x - v.x) * (r.z - v.z) - (q.z - v.z) * (r.x - v.x),
    -((q.x - v.x) * (r.y - v.y) - (q.y - v.y) * (r.x - v.x)), v.x * ((q.y - v.y) * (r.z - v.z) - (q.z - v.z) * (r.y - v.y)) -
    v.y * ((q.x - v.x) * (r.z - v.z) - (q.z - v.z) * (r.x - v.x)) + v.z * ((q.x - v.x) * (r.y - v.y) - (q.y - v.y) * (r.x - v.x)),
    fun p => ?_⟩
  unfold vol6; ring

omit [LinearOrder K] [IsStrictOrderedRing K] in
theorem vol6_snd (p q r : P3 K) : ∃ a b c d : K, ∀ v : P3 K, vol6 p v q r = a * v.x + b * v.y + c * v.z + d := by
  refine ⟨(q.y - p.y) * (r.z - p.z) - (q.z - p.z) * (r.y - p.y), -((q.x - p.x) * (r.z - p.z) - (q.z - p.z) * (r.x - p.x)),
    (q.x - p.x) * (r.y - p.y) - (q.y - p.y) * (r.x - p.x), -(p.x * ((q.y - p.y) * (r.z - p.z) - (q.z - p.z) * (r.y - p.y)) -
    p.y * ((q.x - p.x) * (r.z - p.z) - (q.z - p.z) * (r.x - p.x)) + p.z * ((q.x - p.x) * (r.y - p.y) - (q.y - p.y) * (r.x - p.x))),
    fun v => ?_⟩
  unfold vol6; ring

/-- The triangles of a face are seen from `z` with the orientation of the face. -/
theorem fan_nonneg {pts : List (P3 K)} {fs : List (List (P3 K) × Bool)} (hc : ConvexSurface pts fs) (hp : pts ≠ [])
    {f : List (P3 K) × Bool} (hf : f ∈ fs) {e : P3 K × P3 K} (he : e ∈ outSides f) :
    (∀ v ∈ f.1, 0 ≤ vol6 (mean3 pts) v e.1 e.2) ∧ (f.1 ≠ [] → 0 ≤ vol6 (mean3 pts) (mean3 f.1) e.1 e.2) := by
  have h1 : ∀ v ∈ f.1, 0 ≤ vol6 (mean3 pts) v e.1 e.2 := by
    intro v hv
    obtain ⟨a, b, c, d, h⟩ := vol6_fst v e.1 e.2
    rw [h]
    exact mean_nonneg pts hp a b c d fun p hpp => by rw [← h]; exact hc p hpp f hf v hv e he
  refine ⟨h1, fun hn => ?_⟩
  obtain ⟨a, b, c, d, h⟩ := vol6_snd (mean3 pts) e.1 e.2
  rw [h]
  exact mean_nonneg f.1 hn a b c d fun v hv => by rw [← h]; exact h1 v hv

theorem abs_outSides (z c : P3 K) (f : List (P3 K) × Bool) (h : ∀ e ∈ outSides f, 0 ≤ vol6 z c e.1 e.2) :
    ((sides3 f.1).map fun e => |vol6 z c e.1 e.2|).sum = ((outSides f).map fun e => vol6 z c e.1 e.2).sum := by
  rw [List.map_congr_left (g := fun e => |vol6 z c e.1 e.2|) fun e he => (abs_of_nonneg (h e he)).symm]
  unfold outSides
  split_ifs
  · rfl
  · rw [List.map_map]
    congr 2; funext e
    simp only [Function.comp, Prod.fst_swap, Prod.snd_swap]
    rw [vol6_swap, abs_neg]

/-- The triangles of a face as a fan from its first vertex or from its mean. -/
theorem split_abs (z : P3 K) (l : List (P3 K)) (h : 3 ≤ l.length) :
    ((splitTriangles l).map fun t => |vol6 z t.1 t.2.1 t.2.2|).sum =
      ((sides3 l).map fun e => |vol6 z (if l.length ≤ 4 then l.headD ⟨0, 0, 0⟩ else mean3 l) e.1 e.2|).sum := by
  match l, h with
  | [a, b, c], _ =>
    have h1 : vol6 z a a b = 0 := by unfold vol6; ring
    have h2 : vol6 z a c a = 0 := by unfold vol6; ring
    simp [splitTriangles, sides3, h1, h2]
  | [a, b, c, d], _ =>
    have h1 : vol6 z a a b = 0 := by unfold vol6; ring
    have h2 : vol6 z a d a = 0 := by unfold vol6; ring
    have h3 : vol6 z c d a = vol6 z a c d := by unfold vol6; ring
    simp [splitTriangles, sides3, h1, h2, h3]
  | a :: b :: c :: d :: e :: l, _ =>
    have : ¬ (a :: b :: c :: d :: e :: l).length ≤ 4 := by simp
    rw [if_neg this]
    show ((fan (bary (a :: b :: c :: d :: e :: l)) (a :: b :: c :: d :: e :: l)).map _).sum = _
    rw [fan_sides, List.map_map, bary_mean]
    rfl

theorem face_volume {pts : List (P3 K)} {fs : List (List (P3 K) × Bool)} (hc : ConvexSurface pts fs) (hp : pts ≠ [])
    {f : List (P3 K) × Bool} (hf : f ∈ fs) (h3 : 3 ≤ f.1.length) (hpl : 5 ≤ f.1.length → Planar f.1) :
    ((splitTriangles f.1).map fun t => |vol6 (mean3 pts) t.1 t.2.1 t.2.2|).sum =
      ((outSides f).map fun e => vol6 (mean3 pts) (f.1.headD ⟨0, 0, 0⟩) e.1 e.2).sum := by
  have hn : f.1 ≠ [] := by intro h; simp [h] at h3
  have hh : f.1.headD ⟨0, 0, 0⟩ ∈ f.1 := by
    cases hl : f.1 with
    | nil => exact absurd hl hn
    | cons a l => simp
  rw [split_abs _ _ h3]
  split_ifs with h4
  · exact abs_outSides _ _ f fun e he => (fan_nonneg hc hp hf he).1 _ hh
  · rw [abs_outSides _ _ f fun e he => (fan_nonneg hc hp hf he).2 hn]
    obtain ⟨n, c, hn0, hpc⟩ := hpl (by omega)
    have hl : (f.1.length : K) ≠ 0 := by
      have : 0 < f.1.length := by omega
      exact_mod_cast this.ne'
    have hm : n.x * (mean3 f.1).x + n.y * (mean3 f.1).y + n.z * (mean3 f.1).z = c := by
      have := linear_mean f.1 hl n.x n.y n.z (-c)
      rw [List.map_congr_left (g := fun _ => (0 : K)) fun p hpm => by rw [hpc p hpm]; ring] at this
      simp only [List.map_const', List.sum_replicate, smul_zero, zero_div] at this
      linear_combination this
    rw [outSides_sum f _ (fun p q => vol6_swap _ _ p q), outSides_sum f _ (fun p q => vol6_swap _ _ p q),
      fan_planar f.1 n c hn0 hpc (mean3 pts) (mean3 f.1) _ hm (hpc _ hh)]

theorem splitTets_many (c : Cell K) (h : 5 ≤ c.pts.length) : splitTets c =
    .ok (c.faces.flatMap fun f => (splitTriangles f).map fun t => (mean3 c.pts, t)) := by
  unfold splitTets
  match hp : c.pts, h with
  | a :: b :: d :: e :: g :: l, _ => simp [bary_mean]

theorem volumes_eq (ts : List (P3 K × P3 K × P3 K × P3 K)) :
    volumes ts = (ts.map fun t => |vol6 t.1 t.2.1 t.2.2.1 t.2.2.2|).sum / 6 := by
  unfold volumes
  rw [div_eq_mul_inv, ← List.sum_map_mul_right]
  congr 2; funext t; rw [volume_vol6, div_eq_mul_inv]

/-- The measure is the volume. -/
theorem measure_surf (c : Cell K) (h5 : 5 ≤ c.pts.length) (fs : List (List (P3 K) × Bool))
    (hfs : fs.map Prod.fst = c.faces) (hc : ConvexSurface c.pts fs) (h3 : ∀ f ∈ c.faces, 3 ≤ f.length)
    (hpl : ∀ f ∈ c.faces, 5 ≤ f.length → Planar f) : measure c = .ok (surfVol (mean3 c.pts) fs) := by
  unfold Polyhedron.measure
  rw [splitTets_many c h5, Outcome.bind_ok, volumes_eq, surfVol, ← hfs]
  congr 2
  have hp : c.pts ≠ [] := by intro h; simp [h] at h5
  rw [List.map_flatMap]
  have : ∀ gs : List (List (P3 K) × Bool), (∀ f ∈ gs, f ∈ fs) →
      (((gs.map Prod.fst).flatMap fun f => ((splitTriangles f).map fun t => (mean3 c.pts, t)).map fun t =>
        |vol6 t.1 t.2.1 t.2.2.1 t.2.2.2|)).sum =
      (gs.map fun f => ((outSides f).map fun e => vol6 (mean3 c.pts) (f.1.headD ⟨0, 0, 0⟩) e.1 e.2).sum).sum := by
    intro gs hg
    induction gs with
    | nil => rfl
    | cons f gs ih =>
      simp only [List.map_cons, List.flatMap_cons, List.sum_append, List.sum_cons]
      rw [ih fun g h => hg g (List.mem_cons_of_mem _ h)]
      have hf := hg f List.mem_cons_self
      have hm : f.1 ∈ c.faces := by rw [← hfs]; exact List.mem_map_of_mem hf
      rw [← face_volume hc hp hf (h3 _ hm) (hpl _ hm), List.map_map]
      rfl
  exact this fs fun _ h => h

end geometry

end Verif.Lemmas.Polyhedron
