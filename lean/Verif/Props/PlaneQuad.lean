import Verif.Lemmas.TriRules
import Verif.Lemmas.Simplex
import Verif.Props.Polygon
/-!
C67: `integrate` on 2D cells of generic meshes against integrals over polygons.

Polynomials are given around any point `z` by their terms `c (x - z.x)^i (y - z.y)^j`, and `ρ` bounds the
coefficients of the coordinates of the cell around `z` (for a cell of size `h` and `z` inside, `ρ` is of the order
of `h`, which is how the scaled monomial bases are built). Tables are within half an ulp of the literals.
-/
namespace Verif.Props.PlaneQuad
open Verif.Spec Verif.Quad Verif.PlaneIntegral
open Verif.Simplex (norm cross sub)

section
variable {gtab : List (List (ℝ × ℝ))} {tab : List TriRule}
  (hg : StoredAll (gaussRules.map literal) gtab)
  (ht : List.Forall₂ StoredTri (triGaussRules.map literalTri) tab)
  (tq : Nat → P2 ℝ → P2 ℝ → P2 ℝ → Outcome (List (P2 ℝ × ℝ)))
  (nc : List (P2 ℝ) → Nat → Outcome (List (P2 ℝ × ℝ)))

include hg in
/-- Convex quadrilaterals, even degrees. -/
theorem c67_quadrilateral_partial {p0 p1 p2 p3 z : P2 ℝ} (hc : ConvexCCW [p0, p1, p2, p3]) {d : ℕ}
    (hd : d ≤ 38) (he : d % 2 = 0) {ρ : ℝ}
    (hx : bilSum (p0.x - z.x) (p1.x - z.x) (p2.x - z.x) (p3.x - z.x) ≤ ρ)
    (hy : bilSum (p0.y - z.y) (p1.y - z.y) (p2.y - z.y) (p3.y - z.y) ≤ ρ) (f : Poly2) (hf : f.DegLE d) :
    ∃ qps, integrate2 gtab tab tq nc [p0, p1, p2, p3] d = .ok qps ∧
      |quadSum qps (fun p => f.eval (p.x - z.x) (p.y - z.y)) - polyInt f z [p0, p1, p2, p3]| ≤
        1 / 10 ^ 13 * (f.size ρ * (shoelace [p0, p1, p2, p3] / 4)) := by
  have hcv : Polygon.isConvex [p0, p1, p2, p3] = true := Polygon.c63_complete_partial _ hc
  have hl : gtab.length = 21 := by rw [← stored_length hg]; rfl
  have hn : d / 2 < 20 := by omega
  have hk : ¬ d / 2 ≥ gtab.length - 1 := by omega
  refine ⟨_, ?_, tensor_error (r := gtab.getD (d / 2) []) (n := d + 1) (fun k hk => gauss_bound hg hn (by omega))
    (stored_nodes (stored_getD hg _)) (corners_of_convex hc) f (rep_quad (corners_of_convex hc) hx hy f hf)⟩
  simp [integrate2, hcv, tensor2, hk, Polygon.rd]

include hg in
/-- Parallelograms, all degrees. -/
theorem c67_parallelogram_partial {p0 p1 p2 p3 z : P2 ℝ} (hc : ConvexCCW [p0, p1, p2, p3])
    (hpx : p0.x + p2.x = p1.x + p3.x) (hpy : p0.y + p2.y = p1.y + p3.y) {d : ℕ}
    (hd : d ≤ 39) {ρ : ℝ}
    (hx : bilSum (p0.x - z.x) (p1.x - z.x) (p2.x - z.x) (p3.x - z.x) ≤ ρ)
    (hy : bilSum (p0.y - z.y) (p1.y - z.y) (p2.y - z.y) (p3.y - z.y) ≤ ρ) (f : Poly2) (hf : f.DegLE d) :
    ∃ qps, integrate2 gtab tab tq nc [p0, p1, p2, p3] d = .ok qps ∧
      |quadSum qps (fun p => f.eval (p.x - z.x) (p.y - z.y)) - polyInt f z [p0, p1, p2, p3]| ≤
        1 / 10 ^ 13 * (f.size ρ * (shoelace [p0, p1, p2, p3] / 4)) := by
  have hcv : Polygon.isConvex [p0, p1, p2, p3] = true := Polygon.c63_complete_partial _ hc
  have hl : gtab.length = 21 := by rw [← stored_length hg]; rfl
  have hn : d / 2 < 20 := by omega
  have hk : ¬ d / 2 ≥ gtab.length - 1 := by omega
  refine ⟨_, ?_, tensor_error (r := gtab.getD (d / 2) []) (n := d) (fun k hk => gauss_bound hg hn (by omega))
    (stored_nodes (stored_getD hg _)) (corners_of_convex hc) f
    (rep_para (corners_of_convex hc) hpx hpy hx hy f hf)⟩
  simp [integrate2, hcv, tensor2, hk, Polygon.rd]

include ht in
/-- Triangles in counter-clockwise order, degrees up to 30. -/
theorem c67_triangle {p0 p1 p2 z : P2 ℝ} (hc : 0 ≤ turn p0 p1 p2) {d : ℕ} (hd : d ≤ 30) {ρ : ℝ}
    (hx : |p0.x - z.x| + |p1.x - p0.x| + |p2.x - p0.x| ≤ ρ)
    (hy : |p0.y - z.y| + |p1.y - p0.y| + |p2.y - p0.y| ≤ ρ) (f : Poly2) (hf : f.DegLE d) :
    ∃ qps, integrate2 gtab tab tq nc [p0, p1, p2] d = .ok qps ∧
      |quadSum qps (fun p => f.eval (p.x - z.x) (p.y - z.y)) - polyInt f z [p0, p1, p2]| ≤
        turn p0 p1 p2 * (1 / 10 ^ 14 * f.size ρ) := by
  have hl : tab.length = 31 := by rw [← List.Forall₂.length_eq ht]; rfl
  have hnum : triNum d < 30 ∧ d ≤ triNum d + 1 := by unfold triNum; split_ifs <;> omega
  have h1 : d < tab.length := by omega
  have h2 : triNum d < tab.length - 1 := by omega
  refine ⟨_, ?_, triangle_error (r := tab.getD (triNum d) []) (fun i j hij => tri_bound ht hnum.1 (by omega))
    hx hy f hf hc⟩
  simp [integrate2, triangleGauss, h1, h2, Polygon.rd]

include ht in
/-- Convex polygons of at least five sides, degrees up to 30. -/
theorem c67_polygon {pts : List (P2 ℝ)} {z : P2 ℝ} (h5 : 5 ≤ pts.length) (hc : ConvexCCW pts) {d : ℕ}
    (hd : d ≤ 30) {ρ : ℝ}
    (hρ : ∀ e ∈ sides pts,
      |(Polygon.center pts).x - z.x| + |e.1.x - (Polygon.center pts).x| + |e.2.x - (Polygon.center pts).x| ≤ ρ ∧
      |(Polygon.center pts).y - z.y| + |e.1.y - (Polygon.center pts).y| + |e.2.y - (Polygon.center pts).y| ≤ ρ)
    (f : Poly2) (hf : f.DegLE d) :
    ∃ qps, integrate2 gtab tab tq nc pts d = .ok qps ∧
      |quadSum qps (fun p => f.eval (p.x - z.x) (p.y - z.y)) - polyInt f z pts| ≤
        shoelace pts * (1 / 10 ^ 14 * f.size ρ) := by
  have hcv : Polygon.isConvex pts = true := Polygon.c63_complete_partial _ hc
  have hl : tab.length = 31 := by rw [← List.Forall₂.length_eq ht]; rfl
  have hnum : triNum d < 30 ∧ d ≤ triNum d + 1 := by unfold triNum; split_ifs <;> omega
  have h1 : d < tab.length := by omega
  have h2 : triNum d < tab.length - 1 := by omega
  have hne : pts ≠ [] := by intro h; simp [h] at h5
  set c := Polygon.center pts with hcdef
  let tri : P2 ℝ × P2 ℝ → List (P2 ℝ × ℝ) := fun e => (tab.getD (triNum d) []).map fun g =>
    ((⟨c.x + (e.1.x - c.x) * g.1.1 + (e.2.x - c.x) * g.1.2,
       c.y + (e.1.y - c.y) * g.1.1 + (e.2.y - c.y) * g.1.2⟩ : P2 ℝ), 2 * g.2 * Polygon.triMeasure c e.1 e.2)
  have hint : integrate2 gtab tab tq nc pts d = .ok ((sides pts).map tri).flatten := by
    have a : pts.length > 2 := by omega
    have b : ¬ pts.length = 3 := by omega
    have b' : ¬ (pts.length = 4 ∧ Polygon.isConvex pts = true) := by omega
    unfold integrate2
    rw [if_pos a, if_neg b, if_neg b', if_pos hcv, ← concat_ok]
    unfold integrateConvex
    rw [← Polygon.range_eq_sides, List.map_map]
    congr 1
    refine List.map_congr_left fun i _ => ?_
    simp only [triangleGauss, if_pos h1, if_pos h2, Function.comp, tri, hcdef]
  refine ⟨_, hint, ?_⟩
  rw [quadSum_flatten, List.map_map]
  have hb : polyInt f z pts = ((sides pts).map fun e => polyInt f z [c, e.1, e.2]).sum :=
    (boundary_fan _ pts c).symm
  rw [hb]
  have hturn : ∀ e ∈ sides pts, 0 ≤ turn c e.1 e.2 := by
    intro e he
    rw [Polygon.turn_rot]
    exact Polygon.turn_center_nonneg pts e.1 e.2 hne (hc e he)
  have hs : shoelace pts * (1 / 10 ^ 14 * f.size ρ) =
      ((sides pts).map fun e => turn c e.1 e.2 * (1 / 10 ^ 14 * f.size ρ)).sum := by
    rw [← Polygon.shoelace_turn pts c, List.sum_map_mul_right]
  rw [hs]
  refine sum_abs_bound (sides pts) _ _ _ fun e he => ?_
  exact triangle_error (r := tab.getD (triNum d) []) (fun i j hij => tri_bound ht hnum.1 (by omega))
    (hρ e he).1 (hρ e he).2 f hf (hturn e he)

end

/-- Clockwise triangles: the integral is over the triangle with its points in the other order. -/
theorem c67_triangle_clockwise {gtab : List (List (ℝ × ℝ))} {tab : List TriRule}
    (ht : List.Forall₂ StoredTri (triGaussRules.map literalTri) tab)
    (tq : Nat → P2 ℝ → P2 ℝ → P2 ℝ → Outcome (List (P2 ℝ × ℝ)))
    (nc : List (P2 ℝ) → Nat → Outcome (List (P2 ℝ × ℝ)))
    {p0 p1 p2 z : P2 ℝ} (hc : turn p0 p1 p2 ≤ 0) {d : ℕ} (hd : d ≤ 30) {ρ : ℝ}
    (hx : |p0.x - z.x| + |p1.x - p0.x| + |p2.x - p0.x| ≤ ρ)
    (hy : |p0.y - z.y| + |p1.y - p0.y| + |p2.y - p0.y| ≤ ρ) (f : Poly2) (hf : f.DegLE d) :
    ∃ qps, integrate2 gtab tab tq nc [p0, p1, p2] d = .ok qps ∧
      |quadSum qps (fun p => f.eval (p.x - z.x) (p.y - z.y)) - polyInt f z [p0, p2, p1]| ≤
        turn p0 p2 p1 * (1 / 10 ^ 14 * f.size ρ) := by
  have hl : tab.length = 31 := by rw [← List.Forall₂.length_eq ht]; rfl
  have hnum : triNum d < 30 ∧ d ≤ triNum d + 1 := by unfold triNum; split_ifs <;> omega
  have h1 : d < tab.length := by omega
  have h2 : triNum d < tab.length - 1 := by omega
  refine ⟨_, ?_, triangle_error_cw (r := tab.getD (triNum d) []) (fun i j hij => tri_bound ht hnum.1 (by omega))
    hx hy f hf hc⟩
  simp [integrate2, triangleGauss, h1, h2, Polygon.rd]

/-- Higher degrees on convex quadrilaterals are refused. -/
theorem c67_refused {gtab : List (List (ℝ × ℝ))} (hg : StoredAll (gaussRules.map literal) gtab)
    (tab : List TriRule) (tq : Nat → P2 ℝ → P2 ℝ → P2 ℝ → Outcome (List (P2 ℝ × ℝ)))
    (nc : List (P2 ℝ) → Nat → Outcome (List (P2 ℝ × ℝ)))
    {p0 p1 p2 p3 : P2 ℝ} (hc : ConvexCCW [p0, p1, p2, p3]) {d : ℕ} (hd : 39 < d) :
    (integrate2 gtab tab tq nc [p0, p1, p2, p3] d).Throws := by
  have hcv : Polygon.isConvex [p0, p1, p2, p3] = true := Polygon.c63_complete_partial _ hc
  have hl : gtab.length = 21 := by rw [← stored_length hg]; rfl
  have hk : d / 2 ≥ gtab.length - 1 := by omega
  simp [integrate2, hcv, tensor2, hk, Outcome.Throws]

/-- Odd degrees on convex quadrilaterals that are not parallelograms: degree 1 on a trapezoid of area 2 gets the
integral of `x` wrong by more than 1/20, whatever the rounding of the table. -/
theorem c67_violation {gtab : List (List (ℝ × ℝ))} (hg : StoredAll (gaussRules.map literal) gtab)
    (tab : List TriRule) (tq : Nat → P2 ℝ → P2 ℝ → P2 ℝ → Outcome (List (P2 ℝ × ℝ)))
    (nc : List (P2 ℝ) → Nat → Outcome (List (P2 ℝ × ℝ))) :
    ∃ p0 p1 p2 p3 : P2 ℝ, ∃ f : Poly2, ConvexCCW [p0, p1, p2, p3] ∧ f.DegLE 1 ∧
      ∃ qps, integrate2 gtab tab tq nc [p0, p1, p2, p3] 1 = .ok qps ∧
        1 / 20 < |quadSum qps (fun p => f.eval p.x p.y) - polyInt f ⟨0, 0⟩ [p0, p1, p2, p3]| := by
  have hc : ConvexCCW [(⟨0, 0⟩ : P2 ℝ), ⟨3, 0⟩, ⟨1, 1⟩, ⟨0, 1⟩] := by
    intro e he
    simp only [sides, List.rotate_cons_succ, List.rotate_zero, List.cons_append, List.nil_append, List.zip_cons_cons,
      List.zip_nil_right, List.mem_cons, List.not_mem_nil, or_false] at he
    intro p hp
    simp only [List.mem_cons, List.not_mem_nil, or_false] at hp
    rcases he with rfl | rfl | rfl | rfl <;> rcases hp with rfl | rfl | rfl | rfl <;> norm_num [turn]
  refine ⟨⟨0, 0⟩, ⟨3, 0⟩, ⟨1, 1⟩, ⟨0, 1⟩, [(1, 1, 0)], hc, by simp [Poly2.DegLE], ?_⟩
  have hcv : Polygon.isConvex [(⟨0, 0⟩ : P2 ℝ), ⟨3, 0⟩, ⟨1, 1⟩, ⟨0, 1⟩] = true := Polygon.c63_complete_partial _ hc
  have hl : gtab.length = 21 := by rw [← stored_length hg]; rfl
  obtain ⟨x, w, hr, hx, hw⟩ := gauss_first hg
  have hk : ¬ 1 / 2 ≥ gtab.length - 1 := by omega
  refine ⟨(square (gtab.getD 0 [])).map fun q => (bilMap ⟨0, 0⟩ ⟨3, 0⟩ ⟨1, 1⟩ ⟨0, 1⟩ q.1,
    q.2 * |jac ⟨0, 0⟩ ⟨3, 0⟩ ⟨1, 1⟩ ⟨0, 1⟩ q.1.1 q.1.2|), ?_, ?_⟩
  · simp [integrate2, hcv, tensor2, hk, Polygon.rd]
  · rw [hr, trapezoid_integral]
    have e : quadSum ((square [(x, w)]).map fun q => (bilMap ⟨0, 0⟩ ⟨3, 0⟩ ⟨1, 1⟩ ⟨0, 1⟩ q.1,
        q.2 * |jac ⟨0, 0⟩ ⟨3, 0⟩ ⟨1, 1⟩ ⟨0, 1⟩ q.1.1 q.1.2|)) (fun p => Poly2.eval [(1, 1, 0)] p.x p.y) =
        w * w * |(1 - x / 2) / 2| * ((1 + x) * (1 - x / 2)) := by
      have ej : jac ⟨0, 0⟩ ⟨3, 0⟩ ⟨1, 1⟩ ⟨0, 1⟩ x x = (1 - x / 2) / 2 := by unfold jac; ring
      simp only [quadSum, square, List.flatMap_cons, List.flatMap_nil, List.map_cons, List.map_nil,
        List.append_nil, List.sum_cons, List.sum_nil, ej, bilMap, bil, Poly2.eval]
      ring
    rw [e]
    obtain ⟨x1, x2⟩ := abs_le.mp hx
    obtain ⟨w1, w2⟩ := abs_le.mp hw
    have hy0 : 0 ≤ (1 - x / 2) / 2 := by linarith
    rw [abs_of_nonneg hy0]
    have b1 : w * w ≤ 401 / 100 := by nlinarith
    have b2 : (1 - x / 2) / 2 ≤ 501 / 1000 := by linarith
    have b3 : (1 + x) * (1 - x / 2) ≤ 101 / 100 := by nlinarith
    have p3 : 0 ≤ (1 + x) * (1 - x / 2) := mul_nonneg (by linarith) (by linarith)
    have b4 : w * w * ((1 - x / 2) / 2) ≤ 401 / 100 * (501 / 1000) :=
      mul_le_mul b1 b2 hy0 (by norm_num)
    have b5 : w * w * ((1 - x / 2) / 2) * ((1 + x) * (1 - x / 2)) ≤ 401 / 100 * (501 / 1000) * (101 / 100) :=
      mul_le_mul b4 b3 p3 (by norm_num)
    rw [lt_abs]; right
    norm_num at b5 ⊢
    linarith

/-- The integral of the specification on a rectangle is the iterated one. -/
theorem c67_spec_rectangle (f : Poly2) (a b c e : ℝ) (z : P2 ℝ) :
    polyInt f z [⟨a, b⟩, ⟨c, b⟩, ⟨c, e⟩, ⟨a, e⟩] =
      ∫ y in b..e, ∫ x in a..c, f.eval (x - z.x) (y - z.y) := polyInt_rectangle f a b c e z

/-- The integral of 1 is the area. -/
theorem c67_spec_area (z : P2 ℝ) (pts : List (P2 ℝ)) : polyInt [(1, 0, 0)] z pts = shoelace pts / 2 :=
  polyInt_one z pts

/-- The hypotheses on the tables can be met. -/
example : StoredAll (gaussRules.map literal) (gaussRules.map literal) ∧
    List.Forall₂ StoredTri (triGaussRules.map literalTri) (triGaussRules.map literalTri) :=
  ⟨literal_storedAll _ (by decide +kernel), literalTri_stored _ (by decide +kernel)⟩

/-- A pentagon and a bound as in the theorem. -/
example : ConvexCCW [(⟨0, 0⟩ : P2 ℝ), ⟨2, 0⟩, ⟨3, 1⟩, ⟨1, 3⟩, ⟨0, 2⟩] := by
  intro e he
  simp only [sides, List.rotate_cons_succ, List.rotate_zero, List.cons_append, List.nil_append, List.zip_cons_cons,
    List.zip_nil_right, List.mem_cons, List.not_mem_nil, or_false] at he
  intro p hp
  simp only [List.mem_cons, List.not_mem_nil, or_false] at hp
  rcases he with rfl | rfl | rfl | rfl | rfl <;> rcases hp with rfl | rfl | rfl | rfl | rfl <;> norm_num [turn]

/-- A quadrilateral and a bound as in the theorem. -/
example : bilSum 0 3 1 0 ≤ 3 ∧ bilSum 0 0 1 1 ≤ 3 := by
  constructor <;> norm_num [bilSum, abs_of_pos, abs_of_neg]

/-! C68: triangle faces in space. -/

/-- `triangle_gauss` on a triangle in space: every function that is a polynomial of degree at most `d` of the
position in the triangle. -/
theorem c68_triangle {tab : List TriRule} (ht : List.Forall₂ StoredTri (triGaussRules.map literalTri) tab)
    (p0 p1 p2 : P3 ℝ) {d : ℕ} (hd : d ≤ 30) (f : P3 ℝ → ℝ) (h : Poly2) (hh : h.DegLE d)
    (hf : ∀ u v, f ⟨p0.x + (p1.x - p0.x) * u + (p2.x - p0.x) * v, p0.y + (p1.y - p0.y) * u + (p2.y - p0.y) * v,
      p0.z + (p1.z - p0.z) * u + (p2.z - p0.z) * v⟩ = h.eval u v) :
    ∃ qps, triangleGauss3 tab d p0 p1 p2 = .ok qps ∧
      |quadSum qps f - norm (cross (sub p1 p0) (sub p2 p0)) * refTri (fun u v => h.eval u v)| ≤
        norm (cross (sub p1 p0) (sub p2 p0)) * (1 / 10 ^ 14 * h.size 1) := by
  have hl : tab.length = 31 := by rw [← List.Forall₂.length_eq ht]; rfl
  have hnum : triNum d < 30 ∧ d ≤ triNum d + 1 := by unfold triNum; split_ifs <;> omega
  have h1 : d < tab.length := by omega
  have h2 : triNum d < tab.length - 1 := by omega
  refine ⟨_, by unfold triangleGauss3; rw [if_pos h1, if_pos h2], ?_⟩
  rw [tri_quadSum3 _ f h p0 p1 p2 hf, Simplex.area3_eq]
  have hr : Rep (Tot d) (h.size 1) (fun u v => h.eval u v) := Rep.self h hh
  have b := tri_rule_bound (r := tab.getD (triNum d) []) (fun i j hij => tri_bound ht hnum.1 (by omega)) hr
  have n := Simplex.norm_nonneg (cross (sub p1 p0) (sub p2 p0))
  have e : ∀ N Q I : ℝ, 2 * (N / 2) * Q - N * I = N * (Q - I) := by intros; ring
  rw [e, abs_mul, abs_of_nonneg n]
  exact mul_le_mul_of_nonneg_left b n

/-- Higher degrees are refused. -/
theorem c68_refused {tab : List TriRule} (ht : List.Forall₂ StoredTri (triGaussRules.map literalTri) tab)
    (p0 p1 p2 : P3 ℝ) {d : ℕ} (hd : 30 < d) : (triangleGauss3 tab d p0 p1 p2).Throws := by
  have hl : tab.length = 31 := by rw [← List.Forall₂.length_eq ht]; rfl
  have h1 : ¬ d < tab.length := by omega
  simp [triangleGauss3, h1, Outcome.Throws]

/-- The area: the weights sum to the area of the triangle. -/
theorem c68_area {tab : List TriRule} (ht : List.Forall₂ StoredTri (triGaussRules.map literalTri) tab)
    (p0 p1 p2 : P3 ℝ) {d : ℕ} (hd : d ≤ 30) :
    ∃ qps, triangleGauss3 tab d p0 p1 p2 = .ok qps ∧
      |(qps.map Prod.snd).sum - norm (cross (sub p1 p0) (sub p2 p0)) / 2| ≤
        norm (cross (sub p1 p0) (sub p2 p0)) * (1 / 10 ^ 14) := by
  obtain ⟨qps, h, b⟩ := c68_triangle ht p0 p1 p2 hd (fun _ => 1) [(1, 0, 0)] (by simp [Poly2.DegLE])
    (by intros; simp [Poly2.eval])
  refine ⟨qps, h, ?_⟩
  have e1 : quadSum qps (fun _ => (1 : ℝ)) = (qps.map Prod.snd).sum := by simp [quadSum]
  have e2 : refTri (fun u v => Poly2.eval [(1, 0, 0)] u v) = 1 / 2 := by
    have := refTri_mono 0 0
    simp [Poly2.eval] at this ⊢
    rw [this]; norm_num [triMom]
  rw [e1, e2] at b
  simpa [Poly2.size, div_eq_mul_inv] using b

end Verif.Props.PlaneQuad
