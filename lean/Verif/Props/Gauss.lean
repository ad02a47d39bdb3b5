import Verif.Lemmas.Gauss
/-!
C41: the one-dimensional rules integrate polynomials up to the requested degree.

Bounds are relative to the length of the interval and to the size of the coefficients of the polynomial on the
reference interval; `2 / 10^14` covers the decimals missing from the tables and their rounding to doubles.
-/
namespace Verif.Props.Gauss
open Verif.Spec Verif.Quad Polynomial

/-- `gauss_legendre` on an interval: for every accepted degree, every polynomial of at most that degree. -/
theorem c41_legendre {tab : List (List (ℝ × ℝ))} (ht : StoredAll (gaussRules.map literal) tab) {d : ℕ}
    (hd : d ≤ 39) (a b : ℝ) (q : ℝ[X]) (hq : q.natDegree ≤ d) :
    ∃ qps, gaussLegendre tab d a b = .ok qps ∧ qps.length = d / 2 + 1 ∧
      |quadSum qps (fun x => q.eval x) - ∫ x in a..b, q.eval x|
        ≤ |b - a| / 2 * (2 / 10 ^ 14) * coeffSum d (q.comp (aff a b)) := by
  have hl : tab.length = 21 := by rw [← stored_length ht]; rfl
  have hn : d / 2 < 20 := by omega
  have hc : ¬ d / 2 ≥ tab.length - 1 := by omega
  refine ⟨_, by unfold gaussLegendre; exact if_neg hc, ?_, ?_⟩
  · rw [List.length_map, ← (stored_getD ht (d / 2)).length_eq, literal_length, gauss_length _ hn]
  · exact scalar_bound (fun k hk => gauss_bound ht hn (by omega)) a b hq

/-- `gauss_legendre` between two points of any dimension: every function that is a polynomial of degree at most
`d` of the position on the segment. -/
theorem c41_legendre_segment {tab : List (List (ℝ × ℝ))} (ht : StoredAll (gaussRules.map literal) tab)
    {d : ℕ} (hd : d ≤ 39) {n : ℕ} (a b : Fin n → ℝ) (f : (Fin n → ℝ) → ℝ) (r : ℝ[X])
    (hr : r.natDegree ≤ d) (hf : ∀ s, f (onSegment a b s) = r.eval s) :
    ∃ qps, gaussLegendreP tab d a b = .ok qps ∧ qps.length = d / 2 + 1 ∧
      |quadSum qps f - √(∑ i, (a i - b i) ^ 2) / 2 * ∫ s in (-1 : ℝ)..1, f (onSegment a b s)|
        ≤ √(∑ i, (a i - b i) ^ 2) / 2 * (2 / 10 ^ 14) * coeffSum d r := by
  have hl : tab.length = 21 := by rw [← stored_length ht]; rfl
  have hn : d / 2 < 20 := by omega
  have hc : ¬ d / 2 ≥ tab.length - 1 := by omega
  refine ⟨_, by unfold gaussLegendreP; exact if_neg hc, ?_, ?_⟩
  · rw [List.length_map, ← (stored_getD ht (d / 2)).length_eq, literal_length, gauss_length _ hn]
  · exact segment_bound (fun k hk => gauss_bound ht hn (by omega)) a b hr hf

/-- `gauss_lobatto` on an interval. -/
theorem c41_lobatto {tab : List (List (ℝ × ℝ))} (ht : StoredAll (lobattoRules.map literal) tab) {d : ℕ}
    (hd : d ≤ 37) (a b : ℝ) (q : ℝ[X]) (hq : q.natDegree ≤ d) :
    ∃ qps, gaussLobatto tab d a b = .ok qps ∧ qps.length = d / 2 + 2 ∧
      |quadSum qps (fun x => q.eval x) - ∫ x in a..b, q.eval x|
        ≤ |b - a| / 2 * (2 / 10 ^ 14) * coeffSum d (q.comp (aff a b)) := by
  have hl : tab.length = 20 := by rw [← stored_length ht]; rfl
  have hnum : lobattoNum d = d / 2 + 1 := lobattoNum_eq d
  have hn : d / 2 + 1 < 20 := by omega
  have hc : ¬ lobattoNum d ≥ tab.length := by omega
  refine ⟨_, by unfold gaussLobatto; exact if_neg hc, ?_, ?_⟩
  · rw [hnum, List.length_map, ← (stored_getD ht (d / 2 + 1)).length_eq, literal_length, lobatto_length _ hn]
  · rw [hnum]
    exact scalar_bound (fun k hk => lobatto_bound ht hn (by omega) (by omega)) a b hq

/-- `gauss_lobatto` between two points. -/
theorem c41_lobatto_segment {tab : List (List (ℝ × ℝ))} (ht : StoredAll (lobattoRules.map literal) tab)
    {d : ℕ} (hd : d ≤ 37) {n : ℕ} (a b : Fin n → ℝ) (f : (Fin n → ℝ) → ℝ) (r : ℝ[X])
    (hr : r.natDegree ≤ d) (hf : ∀ s, f (onSegment a b s) = r.eval s) :
    ∃ qps, gaussLobattoP tab d a b = .ok qps ∧ qps.length = d / 2 + 2 ∧
      |quadSum qps f - √(∑ i, (a i - b i) ^ 2) / 2 * ∫ s in (-1 : ℝ)..1, f (onSegment a b s)|
        ≤ √(∑ i, (a i - b i) ^ 2) / 2 * (2 / 10 ^ 14) * coeffSum d r := by
  have hl : tab.length = 20 := by rw [← stored_length ht]; rfl
  have hnum : lobattoNum d = d / 2 + 1 := lobattoNum_eq d
  have hn : d / 2 + 1 < 20 := by omega
  have hc : ¬ lobattoNum d ≥ tab.length := by omega
  refine ⟨_, by unfold gaussLobattoP; exact if_neg hc, ?_, ?_⟩
  · rw [hnum, List.length_map, ← (stored_getD ht (d / 2 + 1)).length_eq, literal_length, lobatto_length _ hn]
  · rw [hnum]
    exact segment_bound (fun k hk => lobatto_bound ht hn (by omega) (by omega)) a b hr hf

/-- Higher degrees are refused by all four functions. -/
theorem c41_refused {tg tl : List (List (ℝ × ℝ))} (hg : StoredAll (gaussRules.map literal) tg)
    (hl : StoredAll (lobattoRules.map literal) tl) (d : ℕ) (x y : ℝ) {n : ℕ} (a b : Fin n → ℝ) :
    (39 < d → (gaussLegendre tg d x y).Throws ∧ (gaussLegendreP tg d a b).Throws) ∧
    (37 < d → (gaussLobatto tl d x y).Throws ∧ (gaussLobattoP tl d a b).Throws) := by
  have hg' : tg.length = 21 := by rw [← stored_length hg]; rfl
  have hl' : tl.length = 20 := by rw [← stored_length hl]; rfl
  constructor
  · intro h
    have hc : d / 2 ≥ tg.length - 1 := by omega
    unfold gaussLegendre gaussLegendreP
    simp only [if_pos hc]; exact ⟨trivial, trivial⟩
  · intro h
    have hc : lobattoNum d ≥ tl.length := by rw [lobattoNum_eq]; omega
    unfold gaussLobatto gaussLobattoP
    simp only [if_pos hc]; exact ⟨trivial, trivial⟩

/-- Lobatto rules contain both end points of the interval exactly as the tables contain `-1` and `1`. -/
theorem c41_lobatto_ends : ∀ n < 20, 1 ≤ n →
    ((lobattoRules.getD n []).head?.map Prod.fst = some (-10 ^ 16) ∧
     (lobattoRules.getD n []).getLast?.map Prod.fst = some (10 ^ 16)) := by decide +kernel

example : ∃ tab, StoredAll (gaussRules.map literal) tab :=
  ⟨_, literal_storedAll gaussRules (by decide +kernel)⟩
example : ∃ tab, StoredAll (lobattoRules.map literal) tab :=
  ⟨_, literal_storedAll lobattoRules (by decide +kernel)⟩
/-- A polynomial that is not integrated by a rule of lower degree is covered: `x ^ 39` has degree 39. -/
example : (X ^ 39 : ℝ[X]).natDegree ≤ 39 := by simp

end Verif.Props.Gauss
