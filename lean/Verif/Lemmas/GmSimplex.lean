import Verif.Lemmas.GrundMoeller
import Verif.Lemmas.SpaceIntegral
import Verif.Lemmas.TriRules
import Verif.Lemmas.Polyhedron
import Verif.Spec.Cfem
/-!
The Grundmann-Möller rules on triangles and tetrahedra.
-/
namespace Verif.Lemmas.GrundMoeller
open Verif Verif.Spec Verif.GrundMoeller Verif.Lemmas.Compositions

theorem pts_mem_length {K : Type} [Field K] {s n : ℕ} {q : List K × K} (h : q ∈ pts s n) : q.1.length = n := by
  simp only [pts, List.mem_flatMap, List.mem_map] at h
  obtain ⟨i, -, b, hb, rfl⟩ := h
  have := ((mem_comps _ _ _).1 hb).1
  simp [absc, this]

theorem ruleOf_le {d m : ℕ} (h : d ≤ 2 * m + 1) : ruleOf d ≤ m := by unfold ruleOf; split_ifs <;> omega

theorem le_ruleOf (d : ℕ) : d ≤ 2 * ruleOf d + 1 := by unfold ruleOf; split_ifs <;> omega

theorem rule_ok {d n : ℕ} (h31 : ruleOf d < 2 ^ 31)
    (h : min (ruleOf d) (n + 1) * (n + ruleOf d + 1).choose (ruleOf d) < 2 ^ 31) :
    rule d n = .ok (pts (ruleOf d) n) := by
  unfold rule
  rw [if_pos h31, ruleSize_ok _ _ h, Outcome.bind_ok, Int.toNat_natCast, ruleSet_ok _ _ _ le_rfl, Outcome.bind_ok,
    pts_length, Nat.sub_self, List.replicate_zero, List.append_nil]

theorem rule3_ok {d : ℕ} (h : d ≤ 669) : rule d 3 = .ok (pts (ruleOf d) 3) := by
  have hs : ruleOf d ≤ 334 := ruleOf_le (by omega)
  have h31 : (2 : ℕ) ^ 31 = 2147483648 := by norm_num
  apply rule_ok
  · rw [h31]; omega
  · have h1 : (3 + ruleOf d + 1).choose (ruleOf d) ≤ (4 + 334).choose 334 := by
      rw [show 3 + ruleOf d + 1 = 4 + ruleOf d by omega]; exact choose_mono' 4 hs
    have h2 : (4 + 334).choose 334 = 534219140 := by
      rw [Nat.choose_symm_of_eq_add (show 4 + 334 = 334 + 4 by rfl)]; decide +kernel
    have h3 : min (ruleOf d) (3 + 1) ≤ 4 := min_le_right _ _
    calc _ ≤ 4 * 534219140 := Nat.mul_le_mul h3 (h1.trans h2.le)
      _ < 2 ^ 31 := by norm_num

theorem rule2_ok {d : ℕ} (h : d ≤ 3247) : rule d 2 = .ok (pts (ruleOf d) 2) := by
  have hs : ruleOf d ≤ 1623 := ruleOf_le (by omega)
  have h31 : (2 : ℕ) ^ 31 = 2147483648 := by norm_num
  apply rule_ok
  · rw [h31]; omega
  · have h1 : (2 + ruleOf d + 1).choose (ruleOf d) ≤ (3 + 1623).choose 1623 := by
      rw [show 2 + ruleOf d + 1 = 3 + ruleOf d by omega]; exact choose_mono' 3 hs
    have h2 : (3 + 1623).choose 1623 = 715169000 := by
      rw [Nat.choose_symm_of_eq_add (show 3 + 1623 = 1623 + 3 by rfl)]; decide +kernel
    have h3 : min (ruleOf d) (2 + 1) ≤ 3 := min_le_right _ _
    calc _ ≤ 3 * 715169000 := Nat.mul_le_mul h3 (h1.trans h2.le)
      _ < 2 ^ 31 := by norm_num

theorem sum3_poly (l : List (List ℝ × ℝ)) (m : Poly3) :
    quadSum l (fun x => m.eval (x.getD 0 0) (x.getD 1 0) (x.getD 2 0)) = (m.map fun t => t.1 *
      quadSum l (fun x => x.getD 0 0 ^ t.2.1 * x.getD 1 0 ^ t.2.2.1 * x.getD 2 0 ^ t.2.2.2)).sum := by
  induction m with
  | nil => simp [quadSum, SpaceIntegral.eval3_nil]
  | cons t m ih =>
    simp only [SpaceIntegral.eval3_cons, List.map_cons, List.sum_cons, ← ih]
    clear ih
    unfold quadSum
    rw [← List.sum_map_mul_left, ← List.sum_map_add]
    congr 2; funext q; ring

theorem pts3_mono (s i j k : ℕ) (h : i + j + k ≤ 2 * s + 1) :
    quadSum (pts s 3 : List (List ℝ × ℝ)) (fun x => x.getD 0 0 ^ i * x.getD 1 0 ^ j * x.getD 2 0 ^ k) =
      6 * ((i.factorial : ℝ) * j.factorial * k.factorial / (i + j + k + 3).factorial) := by
  have := pts_mono (K := ℝ) s 3 [i, j, k] rfl (by simp; omega)
  have e : quadSum (pts s 3 : List (List ℝ × ℝ)) (fun x => x.getD 0 0 ^ i * x.getD 1 0 ^ j * x.getD 2 0 ^ k) =
      ((pts s 3 : List (List ℝ × ℝ)).map fun q => q.2 * mono [i, j, k] q.1).sum := by
    unfold quadSum
    congr 1
    refine List.map_congr_left fun q hq => ?_
    obtain ⟨x, w⟩ := q
    have hl := pts_mem_length hq
    match x, hl with
    | [a, b, c], _ => simp [mono, mul_assoc]
  rw [e, this]
  simp only [List.map_cons, List.map_nil, List.prod_cons, List.prod_nil, mul_one, List.sum_cons, List.sum_nil, add_zero]
  rw [show i + (j + k) = i + j + k by omega, show (Nat.factorial 3 : ℝ) = 6 by norm_num [Nat.factorial]]
  push_cast; ring

theorem pts2_mono (s i j : ℕ) (h : i + j ≤ 2 * s + 1) :
    quadSum (pts s 2 : List (List ℝ × ℝ)) (fun x => x.getD 0 0 ^ i * x.getD 1 0 ^ j) =
      2 * PlaneIntegral.triMom i j := by
  have := pts_mono (K := ℝ) s 2 [i, j] rfl (by simp; omega)
  have e : quadSum (pts s 2 : List (List ℝ × ℝ)) (fun x => x.getD 0 0 ^ i * x.getD 1 0 ^ j) =
      ((pts s 2 : List (List ℝ × ℝ)).map fun q => q.2 * mono [i, j] q.1).sum := by
    unfold quadSum
    congr 1
    refine List.map_congr_left fun q hq => ?_
    obtain ⟨x, w⟩ := q
    have hl := pts_mem_length hq
    match x, hl with
    | [a, b], _ => simp [mono]
  rw [e, this]
  simp only [List.map_cons, List.map_nil, List.prod_cons, List.prod_nil, mul_one, List.sum_cons, List.sum_nil, add_zero]
  unfold PlaneIntegral.triMom
  rw [show (Nat.factorial 2 : ℝ) = 2 by norm_num [Nat.factorial]]
  push_cast; ring

theorem tetra_exact {d : ℕ} (h : d ≤ 669) (p0 p1 p2 p3 : P3 ℝ) (f : Poly3) (hf : f.DegLE d) :
    ∃ l, tetra d p0 p1 p2 p3 = .ok l ∧ quadSum l (fun p => f.eval p.x p.y p.z) =
      tetInt (fun p => f.eval p.x p.y p.z) p0 p1 p2 p3 := by
  refine ⟨_, by unfold tetra; rw [rule3_ok h, Outcome.bind_ok], ?_⟩
  obtain ⟨m, hm, hme⟩ := SpaceIntegral.IsPoly.comp
    (SpaceIntegral.IsPoly.affine p0.x (p1.x - p0.x) (p2.x - p0.x) (p3.x - p0.x))
    (SpaceIntegral.IsPoly.affine p0.y (p1.y - p0.y) (p2.y - p0.y) (p3.y - p0.y))
    (SpaceIntegral.IsPoly.affine p0.z (p1.z - p0.z) (p2.z - p0.z) (p3.z - p0.z)) f hf
  have e : quadSum ((pts (ruleOf d) 3 : List (List ℝ × ℝ)).map fun q =>
      ((⟨p0.x + q.1.getD 0 0 * (Simplex.sub p1 p0).x + q.1.getD 1 0 * (Simplex.sub p2 p0).x + q.1.getD 2 0 * (Simplex.sub p3 p0).x,
        p0.y + q.1.getD 0 0 * (Simplex.sub p1 p0).y + q.1.getD 1 0 * (Simplex.sub p2 p0).y + q.1.getD 2 0 * (Simplex.sub p3 p0).y,
        p0.z + q.1.getD 0 0 * (Simplex.sub p1 p0).z + q.1.getD 1 0 * (Simplex.sub p2 p0).z + q.1.getD 2 0 * (Simplex.sub p3 p0).z⟩ : P3 ℝ),
        q.2 * Simplex.volume p0 p1 p2 p3)) (fun p => f.eval p.x p.y p.z) =
      Simplex.volume p0 p1 p2 p3 * quadSum (pts (ruleOf d) 3 : List (List ℝ × ℝ))
        (fun x => m.eval (x.getD 0 0) (x.getD 1 0) (x.getD 2 0)) := by
    unfold quadSum
    rw [List.map_map, ← List.sum_map_mul_left]
    congr 2; funext q
    simp only [Function.comp, ← hme, Simplex.sub]
    ring
  refine e.trans ?_
  rw [sum3_poly]
  unfold tetInt inTet
  simp only [hme, SpaceIntegral.refTet_poly, Lemmas.Polyhedron.volume_vol6]
  rw [List.map_congr_left (g := fun t => 6 * (t.1 * ((t.2.1.factorial : ℝ) * t.2.2.1.factorial * t.2.2.2.factorial /
      (t.2.1 + t.2.2.1 + t.2.2.2 + 3).factorial))) (fun t ht => by
    rw [pts3_mono _ _ _ _ ((hm t ht).trans (le_ruleOf d))]; ring), List.sum_map_mul_left]
  ring

theorem tri_exact {d : ℕ} (h : d ≤ 3247) (p0 p1 p2 : P2 ℝ) (f : Poly2) (hf : f.DegLE d) :
    ∃ l, tri d p0 p1 p2 = .ok l ∧ quadSum l (fun p => f.eval p.x p.y) = triInt p0 p1 p2 (fun p => f.eval p.x p.y) := by
  refine ⟨_, by unfold tri; rw [rule2_ok h, Outcome.bind_ok], ?_⟩
  obtain ⟨m, hm, -, hme⟩ := PlaneIntegral.Rep.comp_tot
    (PlaneIntegral.Rep.affine (c0 := p0.x) (c1 := p1.x - p0.x) (c2 := p2.x - p0.x) (le_max_left _
      (|p0.y| + |p1.y - p0.y| + |p2.y - p0.y|)))
    (PlaneIntegral.Rep.affine (c0 := p0.y) (c1 := p1.y - p0.y) (c2 := p2.y - p0.y) (le_max_right _ _)) f hf
  have e : quadSum ((pts (ruleOf d) 2 : List (List ℝ × ℝ)).map fun q =>
      ((⟨p0.x + q.1.getD 0 0 * (p1.x - p0.x) + q.1.getD 1 0 * (p2.x - p0.x),
        p0.y + q.1.getD 0 0 * (p1.y - p0.y) + q.1.getD 1 0 * (p2.y - p0.y)⟩ : P2 ℝ),
        q.2 * Polygon.triMeasure p0 p1 p2)) (fun p => f.eval p.x p.y) =
      Polygon.triMeasure p0 p1 p2 * quadSum (pts (ruleOf d) 2 : List (List ℝ × ℝ))
        (fun x => m.eval (x.getD 0 0) (x.getD 1 0)) := by
    unfold quadSum
    rw [List.map_map, ← List.sum_map_mul_left]
    congr 2; funext q
    simp only [Function.comp, ← hme]
    rw [show ∀ a b c t : ℝ, a + t * b + c = a + b * t + c by intros; ring]
    ring_nf
  refine e.trans ?_
  rw [PlaneIntegral.quadSum_poly]
  unfold triInt
  have e2 : (fun u v => f.eval (p0.x + u * (p1.x - p0.x) + v * (p2.x - p0.x)) (p0.y + u * (p1.y - p0.y) + v * (p2.y - p0.y))) =
      fun u v => m.eval u v := by
    funext u v; rw [← hme]; ring_nf
  dsimp only
  rw [e2, PlaneIntegral.refTri_poly, Polygon.triMeasure_eq]
  simp only [PlaneIntegral.refTri_mono]
  rw [List.map_congr_left (g := fun t => 2 * (t.1 * PlaneIntegral.triMom t.2.1 t.2.2)) (fun t ht => by
    rw [pts2_mono _ _ _ ((show t.2.1 + t.2.2 ≤ d from hm t ht).trans (le_ruleOf d))]; ring), List.sum_map_mul_left]
  ring

theorem pts_inside {s n : ℕ} {q : List ℝ × ℝ} (h : q ∈ pts s n) : (∀ x ∈ q.1, 0 < x) ∧ q.1.sum < 1 := by
  simp only [pts, List.mem_flatMap, List.mem_map, List.mem_range] at h
  obtain ⟨i, hi, b, hb, rfl⟩ := h
  obtain ⟨h1, h2⟩ := (mem_comps _ _ _).1 hb
  have hD : 0 < 2 * s + 1 + n - 2 * i := by omega
  have hD' : (0 : ℝ) < ((2 * s + 1 + n - 2 * i : ℕ) : ℝ) := by exact_mod_cast hD
  constructor
  · intro x hx
    simp only [absc, List.mem_map] at hx
    obtain ⟨c, -, rfl⟩ := hx
    have : (0 : ℝ) < ((2 * c + 1 : ℕ) : ℝ) := by exact_mod_cast Nat.succ_pos _
    positivity
  · simp only [absc]
    rw [sum_cast_div, div_lt_one hD']
    match b, h1 with
    | c :: t, h1 =>
      have e : ∀ l : List ℕ, (l.map fun x => 2 * x + 1).sum = 2 * l.sum + l.length := by
        intro l; induction l with
        | nil => rfl
        | cons a l ih => simp only [List.map_cons, List.sum_cons, List.length_cons, ih]; omega
      simp only [List.length_cons, List.sum_cons] at h1 h2
      have : ((t.map fun x => 2 * x + 1).sum) < 2 * s + 1 + n - 2 * i := by rw [e]; omega
      exact_mod_cast this

theorem pts_negative {s n : ℕ} (h : 1 ≤ s) : ∃ q ∈ (pts s n : List (List ℝ × ℝ)), q.2 < 0 := by
  have hm : (s - 1) :: List.replicate n 0 ∈ comps n (s - 1) := by rw [mem_comps]; simp
  refine ⟨(absc s n 1 ((s - 1) :: List.replicate n 0), weight s n 1 ((-1) ^ 1)), ?_, ?_⟩
  · simp only [pts, List.mem_flatMap, List.mem_map, List.mem_range]
    exact ⟨1, by omega, _, hm, rfl⟩
  · rw [weight_eq s n 1 h]
    have : (0 : ℝ) < ((2 * s + 1 + n - 2 * 1 : ℕ) : ℝ) := by exact_mod_cast (by omega : 0 < 2 * s + 1 + n - 2 * 1)
    have h2 : (0 : ℝ) < n.factorial * ((2 * s + 1 + n - 2 * 1 : ℕ) : ℝ) ^ (2 * s + 1) /
      (2 ^ (2 * s) * (1 : ℕ).factorial * (2 * s + 1 + n - 1).factorial) := by positivity
    rw [pow_one, neg_one_mul]
    exact neg_neg_of_pos h2

theorem rule_ub {d n : ℕ}
    (h : 2 ^ 31 ≤ min (ruleOf d) (n + 1) * (n + ruleOf d + 1).choose (ruleOf d)) : ∃ m, rule d n = .ub m := by
  unfold rule
  split_ifs
  · exact ⟨"int overflow", by rw [ruleSize_ub _ _ h, Outcome.bind_ub]⟩
  · exact ⟨_, rfl⟩

theorem rule3_ub {d : ℕ} (h : 670 ≤ d) : ∃ m, rule d 3 = .ub m := by
  have hs : 335 ≤ ruleOf d := by have := le_ruleOf d; unfold ruleOf at *; split_ifs at * <;> omega
  apply rule_ub
  have h1 : (4 + 335).choose 335 ≤ (3 + ruleOf d + 1).choose (ruleOf d) := by
    rw [show 3 + ruleOf d + 1 = 4 + ruleOf d by omega]; exact choose_mono' 4 hs
  have h2 : (4 + 335).choose 335 = 540597876 := by
    rw [Nat.choose_symm_of_eq_add (show 4 + 335 = 335 + 4 by rfl)]; decide +kernel
  have h3 : 4 ≤ min (ruleOf d) (3 + 1) := le_min (by omega) le_rfl
  calc 2 ^ 31 ≤ 4 * 540597876 := by norm_num
    _ ≤ _ := Nat.mul_le_mul h3 (h2.ge.trans h1)

theorem rule2_ub {d : ℕ} (h : 3248 ≤ d) : ∃ m, rule d 2 = .ub m := by
  have hs : 1624 ≤ ruleOf d := by have := le_ruleOf d; unfold ruleOf at *; split_ifs at * <;> omega
  apply rule_ub
  have h1 : (3 + 1624).choose 1624 ≤ (2 + ruleOf d + 1).choose (ruleOf d) := by
    rw [show 2 + ruleOf d + 1 = 3 + ruleOf d by omega]; exact choose_mono' 3 hs
  have h2 : (3 + 1624).choose 1624 = 716490125 := by
    rw [Nat.choose_symm_of_eq_add (show 3 + 1624 = 1624 + 3 by rfl)]; decide +kernel
  have h3 : 3 ≤ min (ruleOf d) (2 + 1) := le_min (by omega) le_rfl
  calc 2 ^ 31 ≤ 3 * 716490125 := by norm_num
    _ ≤ _ := Nat.mul_le_mul h3 (h2.ge.trans h1)

theorem quadSum_append {X : Type} (a b : List (X × ℝ)) (f : X → ℝ) : quadSum (a ++ b) f = quadSum a f + quadSum b f := by
  simp [quadSum]

theorem tetRules_exact {d : ℕ} (h : d ≤ 669) (ts : List (P3 ℝ × P3 ℝ × P3 ℝ × P3 ℝ)) (f : Poly3) (hf : f.DegLE d) :
    ∃ l, Polyhedron.tetRules d ts = .ok l ∧ quadSum l (fun p => f.eval p.x p.y p.z) =
      (ts.map fun t => tetInt (fun p => f.eval p.x p.y p.z) t.1 t.2.1 t.2.2.1 t.2.2.2).sum := by
  induction ts with
  | nil => exact ⟨[], rfl, by simp [quadSum]⟩
  | cons t ts ih =>
    obtain ⟨l, h1, h2⟩ := ih
    obtain ⟨q, h3, h4⟩ := tetra_exact h t.1 t.2.1 t.2.2.1 t.2.2.2 f hf
    refine ⟨q ++ l, by unfold Polyhedron.tetRules; rw [h3, Outcome.bind_ok, h1, Outcome.bind_ok], ?_⟩
    rw [quadSum_append, h2, h4, List.map_cons, List.sum_cons]

theorem tetInt_one (p0 p1 p2 p3 : P3 ℝ) : tetInt (fun _ => 1) p0 p1 p2 p3 = Simplex.volume p0 p1 p2 p3 := by
  have := SpaceIntegral.refTet_mono 0 0 0
  simp only [pow_zero, mul_one] at this
  unfold tetInt
  rw [this, Lemmas.Polyhedron.volume_vol6]
  norm_num [Nat.factorial]
  ring

end Verif.Lemmas.GrundMoeller
