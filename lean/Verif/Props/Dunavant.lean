import Verif.Lemmas.Dunavant
/-!
C42: the Dunavant rules.
-/
namespace Verif.Props.Dunavant
open Verif.Spec Verif.Quad Verif.PlaneIntegral

/-- Degrees up to 20, with or without assertions: the rule is not empty and its weights sum to the area. -/
theorem c42_weights_partial {tab : List DunRule} (h : List.Forall₂ StoredDun (dunavantRules.map literalDun) tab)
    (ndebug : Bool) {d : ℕ} (hd : d ≤ 20) (p0 p1 p2 : P2 ℝ) :
    ∃ qps, dunavant ndebug tab d p0 p1 p2 = .ok qps ∧ 0 < qps.length ∧
      |(qps.map Prod.snd).sum - |turn p0 p1 p2| / 2| ≤ |turn p0 p1 p2| / 2 * (4 / 10 ^ 14) := by
  have hl : tab.length = 21 := by rw [← List.Forall₂.length_eq h]; rfl
  have hnum : triNum d < 20 ∧ d ≤ triNum d + 1 := by unfold triNum; split_ifs <;> omega
  have h1 : ¬ d > tab.length := by omega
  have h2 : ¬ (¬ triNum d < tab.length - 1 ∧ ndebug = false) := by omega
  refine ⟨_, by unfold dunavant; rw [if_neg h1, if_neg h2], ?_, ?_⟩ <;> rw [dun_flatMap]
  · rw [List.length_map]
    have l := (near_bpts (storedDun_getD h (triNum d))).length_eq
    rw [literal_bpts, List.length_map] at l
    rw [← l]
    exact dun_nonempty _ hnum.1
  · have b := dun_bound h hnum.1 (i := 0) (j := 0) (k := 0) (by omega)
    have e1 : dirMom 0 0 0 = 1 / 2 := by simp [dirMom]
    have e2 : quadSum ((tab.getD (triNum d) []).flatMap bpts) (fun q => q.1 ^ 0 * q.2.1 ^ 0 * q.2.2 ^ 0) =
        (((tab.getD (triNum d) []).flatMap bpts).map Prod.snd).sum := by simp [quadSum]
    rw [e1, e2] at b
    rw [List.map_map]
    have e3 : (((tab.getD (triNum d) []).flatMap bpts).map (Prod.snd ∘ fun q : (ℝ × ℝ × ℝ) × ℝ =>
        ((⟨p0.x * q.1.1 + p1.x * q.1.2.1 + p2.x * q.1.2.2, p0.y * q.1.1 + p1.y * q.1.2.1 + p2.y * q.1.2.2⟩ : P2 ℝ),
          Polygon.triMeasure p0 p1 p2 * q.2))).sum =
        Polygon.triMeasure p0 p1 p2 * (((tab.getD (triNum d) []).flatMap bpts).map Prod.snd).sum := by
      rw [← List.sum_map_mul_left]; rfl
    rw [e3, Polygon.triMeasure_eq]
    generalize (((tab.getD (triNum d) []).flatMap bpts).map Prod.snd).sum = S at b
    have a : 0 ≤ |turn p0 p1 p2| / 2 := by positivity
    have e : |turn p0 p1 p2| / 2 * S - |turn p0 p1 p2| / 2 = |turn p0 p1 p2| / 2 * (S - 2 * (1 / 2)) := by ring
    rw [e, abs_mul, abs_of_nonneg a]
    exact mul_le_mul_of_nonneg_left b a

/-- Degrees up to 20: every function that is a polynomial of degree at most `d` of the barycentric coordinates is
integrated. -/
theorem c42_exact_partial {tab : List DunRule} (h : List.Forall₂ StoredDun (dunavantRules.map literalDun) tab)
    (ndebug : Bool) {d : ℕ} (hd : d ≤ 20) (p0 p1 p2 : P2 ℝ) (f : P2 ℝ → ℝ) (g : Poly3) (hg : g.DegLE d)
    (hf : ∀ a b c, f ⟨p0.x * a + p1.x * b + p2.x * c, p0.y * a + p1.y * b + p2.y * c⟩ = g.eval a b c) :
    ∃ qps, dunavant ndebug tab d p0 p1 p2 = .ok qps ∧
      |quadSum qps f - |turn p0 p1 p2| * refTri (fun u v =>
        f ⟨p0.x * (1 - u - v) + p1.x * u + p2.x * v, p0.y * (1 - u - v) + p1.y * u + p2.y * v⟩)| ≤
        |turn p0 p1 p2| / 2 * (4 / 10 ^ 14 * g.size 1) := by
  have hl : tab.length = 21 := by rw [← List.Forall₂.length_eq h]; rfl
  have hnum : triNum d < 20 ∧ d ≤ triNum d + 1 := by unfold triNum; split_ifs <;> omega
  have h1 : ¬ d > tab.length := by omega
  have h2 : ¬ (¬ triNum d < tab.length - 1 ∧ ndebug = false) := by omega
  refine ⟨_, by unfold dunavant; rw [if_neg h1, if_neg h2], ?_⟩
  rw [dun_flatMap]
  have b := bary_rule_bound (r := (tab.getD (triNum d) []).flatMap bpts) (d := d)
    (fun i j k hij => dun_bound h hnum.1 (i := i) (j := j) (k := k) (by omega)) g hg
  simp only [hf]
  have e1 : quadSum (((tab.getD (triNum d) []).flatMap bpts).map fun q =>
      ((⟨p0.x * q.1.1 + p1.x * q.1.2.1 + p2.x * q.1.2.2, p0.y * q.1.1 + p1.y * q.1.2.1 + p2.y * q.1.2.2⟩ : P2 ℝ),
        Polygon.triMeasure p0 p1 p2 * q.2)) f =
      Polygon.triMeasure p0 p1 p2 * quadSum ((tab.getD (triNum d) []).flatMap bpts)
        (fun q => g.eval q.1 q.2.1 q.2.2) := by
    unfold quadSum
    rw [List.map_map, ← List.sum_map_mul_left]
    congr 2
    funext q
    simp only [Function.comp, hf]
    ring
  rw [e1, Polygon.triMeasure_eq]
  have a : 0 ≤ |turn p0 p1 p2| / 2 := by positivity
  have e : ∀ N Q I : ℝ, N / 2 * Q - N * I = N / 2 * (Q - 2 * I) := by intros; ring
  rw [e, abs_mul, abs_of_nonneg a]
  exact mul_le_mul_of_nonneg_left b a

/-- Degrees above 21 are refused. -/
theorem c42_refused {tab : List DunRule} (h : List.Forall₂ StoredDun (dunavantRules.map literalDun) tab)
    (ndebug : Bool) {d : ℕ} (hd : 21 < d) (p0 p1 p2 : P2 ℝ) : (dunavant ndebug tab d p0 p1 p2).Throws := by
  have hl : tab.length = 21 := by rw [← List.Forall₂.length_eq h]; rfl
  have h1 : d > tab.length := by omega
  simp [dunavant, h1, Outcome.Throws]

/-- Degree 21 passes the guard: an assertion fails, and without assertions the rule has no points. -/
theorem c42_violation {tab : List DunRule} (h : List.Forall₂ StoredDun (dunavantRules.map literalDun) tab)
    (p0 p1 p2 : P2 ℝ) :
    (dunavant false tab 21 p0 p1 p2).IsUB ∧ dunavant true tab 21 p0 p1 p2 = .ok [] := by
  have hl : tab.length = 21 := by rw [← List.Forall₂.length_eq h]; rfl
  have hs := storedDun_getD h 20
  have hz : tab.getD 20 [] = [] := by
    have e : literalDun (dunavantRules.getD 20 []) = [] := rfl
    rw [e] at hs
    exact List.forall₂_nil_left_iff.mp hs
  have hz' : tab.getD (triNum 21) [] = [] := hz
  have k : ¬ triNum 21 < tab.length - 1 := by rw [hl]; decide
  have k0 : ¬ 21 > tab.length := by omega
  constructor
  · unfold dunavant
    rw [if_neg k0, if_pos ⟨k, rfl⟩]
    trivial
  · unfold dunavant
    rw [if_neg k0, if_neg (by simp), hz']
    rfl

/-- The hypothesis on the table can be met. -/
example : List.Forall₂ StoredDun (dunavantRules.map literalDun) (dunavantRules.map literalDun) := by
  refine List.forall₂_same.mpr fun t _ => List.forall₂_same.mpr fun e _ => ?_
  have := halfUlp_pos
  simp only [sub_self, abs_zero, true_and]
  refine ⟨by positivity, by positivity, by positivity, by positivity⟩

/-- A function as in `c42_exact_partial`. -/
example (p0 p1 p2 : P2 ℝ) : ∀ a b c : ℝ, (fun p : P2 ℝ => p.x) ⟨p0.x * a + p1.x * b + p2.x * c,
    p0.y * a + p1.y * b + p2.y * c⟩ = Poly3.eval [(p0.x, 1, 0, 0), (p1.x, 0, 1, 0), (p2.x, 0, 0, 1)] a b c := by
  intro a b c; simp [Poly3.eval]; ring

end Verif.Props.Dunavant
