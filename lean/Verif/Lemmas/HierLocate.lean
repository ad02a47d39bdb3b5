import Verif.Model.HierLocate
import Verif.Lemmas.Hierarchy
import Verif.Lemmas.Locate
import Verif.Props.Locate
/-! Lemmas for C72. -/
namespace Verif.HierLocate
open Verif.TriRefine Verif.Spec Verif.Spec.Locate Verif.Locate Verif.Props.Locate

variable {K : Type} [Field K]

/-- Twice the signed area. -/
def det (a b c : K × K) : K := (b.1 - a.1) * (c.2 - a.2) - (b.2 - a.2) * (c.1 - a.1)

theorem cells_get {m : Mesh K} (h : Conforming m) (i : Nat) : (cells m)[i]? = cornersAt m i := by
  unfold cells cornersAt
  rw [List.getElem?_map]
  cases ht : m.tris[i]? with
  | none => rfl
  | some t =>
    obtain ⟨p, q, r, hp, hq, hr⟩ := Hierarchy.corners_of_conforming h (List.mem_of_getElem? ht)
    simp only [corners, hp, hq, hr, Option.map_some, List.getD_eq_getElem?_getD, Option.getD_some]

variable [LinearOrder K] [IsStrictOrderedRing K]

theorem inside_iff {a b c p : K × K} (h : det a b c ≠ 0) :
    (isInside (a, b, c) p).getD false = true ↔ InTriangle a b c p := by
  obtain ⟨r, h1, h2⟩ := Props.Locate.c50_inside a b c p h
  rw [h1]; exact h2

/-- A point of a triangle lies in one of the four triangles it is cut into. -/
theorem in_child {p q r x : K × K} (h : InTriangle p q r x) :
    InTriangle p (half p q) (half p r) x ∨ InTriangle q (half p q) (half q r) x ∨
      InTriangle r (half p r) (half q r) x ∨ InTriangle (half p q) (half p r) (half q r) x := by
  obtain ⟨u, v, w, hu, hv, hw, hs, h1, h2⟩ := h
  have hw' : w = 1 - u - v := by linarith
  subst hw'
  by_cases c0 : u + v ≤ 1 / 2
  · left
    refine ⟨2 * u, 2 * v, 1 - 2 * u - 2 * v, by linarith, by linarith, by linarith, by ring, ?_, ?_⟩
    · rw [h1]; simp only [half]; ring
    · rw [h2]; simp only [half]; ring
  right
  by_cases c1 : 1 / 2 ≤ u
  · left
    refine ⟨2 * (1 - u - v), 2 * v, 2 * u - 1, by linarith, by linarith, by linarith, by ring, ?_, ?_⟩
    · rw [h1]; simp only [half]; ring
    · rw [h2]; simp only [half]; ring
  right
  by_cases c2 : 1 / 2 ≤ v
  · left
    refine ⟨2 * (1 - u - v), 2 * u, 2 * v - 1, by linarith, by linarith, by linarith, by ring, ?_, ?_⟩
    · rw [h1]; simp only [half]; ring
    · rw [h2]; simp only [half]; ring
  right
  refine ⟨1 - 2 * u, 2 * (u + v) - 1, 1 - 2 * v, by linarith, by linarith, by linarith, by ring, ?_, ?_⟩
  · rw [h1]; simp only [half]; ring
  · rw [h2]; simp only [half]; ring

theorem child_det (p q r : K × K) :
    det p (half p q) (half p r) = det p q r / 4 ∧ det q (half p q) (half q r) = - (det p q r / 4) ∧
      det r (half p r) (half q r) = det p q r / 4 ∧ det (half p q) (half p r) (half q r) = - (det p q r / 4) := by
  simp only [det, half]
  refine ⟨?_, ?_, ?_, ?_⟩ <;> ring

/-- No triangle is degenerate. -/
def NonDegenerate (m : Mesh K) : Prop := ∀ (i : Nat) (p q r : K × K), cornersAt m i = some (p, q, r) → det p q r ≠ 0

theorem nested_parent {a b : Mesh K} {c : List (List Nat)} (h : Nested a b c) (ha : Conforming a) {j : Nat}
    (hj : j < b.tris.length) :
    ∃ i p q r, cornersAt a i = some (p, q, r) ∧
      (cornersAt b j = some (p, half p q, half p r) ∨ cornersAt b j = some (q, half p q, half q r) ∨
        cornersAt b j = some (r, half p r, half q r) ∨ cornersAt b j = some (half p q, half p r, half q r)) := by
  have h1 : j ∈ c.flatten := h.cover.mem_iff.2 (List.mem_range.2 hj)
  obtain ⟨row, hrow, hjr⟩ := List.mem_flatten.1 h1
  obtain ⟨i, hi⟩ := List.getElem?_of_mem hrow
  have hil : i < a.tris.length := by rw [← h.rows]; exact (List.getElem?_eq_some_iff.1 hi).1
  have ht := List.getElem?_eq_getElem hil
  obtain ⟨p, q, r, hp, hq, hr⟩ := Hierarchy.corners_of_conforming ha (List.mem_of_getElem? ht)
  have hc : cornersAt a i = some (p, q, r) := by simp only [cornersAt, ht, corners, hp, hq, hr]
  obtain ⟨i0, i1, i2, i3, e0, e1, e2, e3, e4⟩ := h.cut i p q r hc
  rw [hi] at e0
  cases e0
  refine ⟨i, p, q, r, hc, ?_⟩
  simp only [List.mem_cons, List.not_mem_nil, or_false] at hjr
  rcases hjr with rfl | rfl | rfl | rfl
  · exact .inl e1
  · exact .inr (.inl e2)
  · exact .inr (.inr (.inl e3))
  · exact .inr (.inr (.inr e4))

theorem nonDegenerate_next {a b : Mesh K} {c : List (List Nat)} (h : Nested a b c) (ha : Conforming a)
    (hd : NonDegenerate a) : NonDegenerate b := by
  intro j x y z hj
  have hjl : j < b.tris.length := by
    unfold cornersAt at hj
    cases ht : b.tris[j]? with
    | none => rw [ht] at hj; simp at hj
    | some t => exact (List.getElem?_eq_some_iff.1 ht).1
  obtain ⟨i, p, q, r, hc, hh⟩ := nested_parent h ha hjl
  have hn := hd i p q r hc
  obtain ⟨d1, d2, d3, d4⟩ := child_det p q r
  have h4 : det p q r / 4 ≠ 0 := div_ne_zero hn (by norm_num)
  rcases hh with e | e | e | e <;> rw [hj] at e <;> cases e
  · rw [d1]; exact h4
  · rw [d2]; exact neg_ne_zero.2 h4
  · rw [d3]; exact h4
  · rw [d4]; exact neg_ne_zero.2 h4

/-- What a built hierarchy satisfies. -/
structure Good (ms : List (Mesh K)) (cs : List (List (List Nat))) : Prop where
  count : ms.length = cs.length + 1
  conf : ∀ (l : Nat) (m : Mesh K), ms[l]? = some m → Conforming m
  nest : ∀ (l : Nat) (a b : Mesh K) (c : List (List Nat)), ms[l]? = some a → ms[l + 1]? = some b → cs[l]? = some c →
    Nested a b c
  nondeg : ∀ (l : Nat) (m : Mesh K), ms[l]? = some m → NonDegenerate m

theorem good_nondeg {ms : List (Mesh K)} {cs : List (List (List Nat))} (hcount : ms.length = cs.length + 1)
    (hconf : ∀ (l : Nat) (m : Mesh K), ms[l]? = some m → Conforming m)
    (hnest : ∀ (l : Nat) (a b : Mesh K) (c : List (List Nat)), ms[l]? = some a → ms[l + 1]? = some b → cs[l]? = some c →
      Nested a b c) (h0 : ∀ m, ms[0]? = some m → NonDegenerate m) : Good ms cs := by
  refine ⟨hcount, hconf, hnest, ?_⟩
  intro l
  induction l with
  | zero => exact h0
  | succ l ih =>
    intro b hb
    have hl : l + 1 < ms.length := (List.getElem?_eq_some_iff.1 hb).1
    have ha := List.getElem?_eq_getElem (show l < ms.length by omega)
    have hc := List.getElem?_eq_getElem (show l < cs.length by omega)
    exact nonDegenerate_next (hnest l _ _ _ ha hb hc) (hconf l _ ha) (ih _ ha)

theorem locateRec_ok {ms : List (Mesh K)} {cs : List (List (List Nat))} (g : Good ms cs) (x : K × K) (level : Nat)
    (hl : level < ms.length) (fuel k t : Nat) (hk : k + fuel = level) (m : Mesh K) (hm : ms[k]? = some m)
    (a b c : K × K) (hc : cornersAt m t = some (a, b, c)) (hin : InTriangle a b c x) :
    ∃ t' m' a' b' c', locateRec (hier ms cs) x level fuel (k + 1) t = .ok t' ∧ ms[level]? = some m' ∧
      cornersAt m' t' = some (a', b', c') ∧ InTriangle a' b' c' x := by
  induction fuel generalizing k t m a b c with
  | zero =>
    have : k = level := by omega
    subst this
    refine ⟨t, m, a, b, c, ?_, hm, hc, hin⟩
    have h1 : ¬ k > (hier ms cs).meshes.length := by simp [hier]; omega
    rw [locateRec, if_neg h1, if_pos (by omega)]
  | succ fuel ih =>
    have h1 : ¬ level > (hier ms cs).meshes.length := by simp [hier]; omega
    have h2 : ¬ k + 1 > level := by omega
    have hk1 : k + 1 < ms.length := by omega
    have hb := List.getElem?_eq_getElem hk1
    have hcs := List.getElem?_eq_getElem (show k < cs.length by have := g.count; omega)
    generalize ms[k + 1] = n at hb
    generalize cs[k]'(by have := g.count; omega) = cc at hcs
    have hnest := g.nest k m n cc hm hb hcs
    obtain ⟨i0, i1, i2, i3, e0, e1, e2, e3, e4⟩ := hnest.cut t a b c hc
    have hmesh : (hier ms cs).meshes[k + 1]? = some (cells n) := by
      simp only [hier, List.getElem?_map, hb, Option.map_some]
    have hc2f : (hier ms cs).c2f[k + 1 - 1]? = some cc := by simpa [hier] using hcs
    rw [locateRec, if_neg h1, if_neg h2]
    simp only [hmesh, hc2f, e0]
    have nconf := g.conf (k + 1) n hb
    have nd := g.nondeg (k + 1) n hb
    have hlt : ∀ j ∈ [i0, i1, i2, i3], j < (cells n).length := by
      intro j hj
      have hj' : ∃ y, cornersAt n j = some y := by
        simp only [List.mem_cons, List.not_mem_nil, or_false] at hj
        rcases hj with rfl | rfl | rfl | rfl
        exacts [⟨_, e1⟩, ⟨_, e2⟩, ⟨_, e3⟩, ⟨_, e4⟩]
      obtain ⟨y, hy⟩ := hj'
      rw [← cells_get nconf] at hy
      exact (List.getElem?_eq_some_iff.1 hy).1
    rcases findIn_cases (hier ms cs) (cells n) x [i0, i1, i2, i3] hlt with ⟨t', cl, f1, f2, f3, f4⟩ | ⟨f1, f2⟩
    · rw [f1]
      simp only [Outcome.bind_ok]
      rw [cells_get nconf] at f3
      obtain ⟨a', b', c'⟩ := cl
      exact ih (k + 1) t' (by omega) n hb a' b' c' f3 ((inside_iff (nd t' a' b' c' f3)).1 f4)
    · exfalso
      have key : ∀ j ∈ [i0, i1, i2, i3], ∀ a' b' c', cornersAt n j = some (a', b', c') → ¬ InTriangle a' b' c' x := by
        intro j hj a' b' c' hcj hin'
        have := f2 j hj _ ((cells_get nconf j).trans hcj)
        rw [show (hier ms cs).inside (a', b', c') x = true from (inside_iff (nd j a' b' c' hcj)).2 hin'] at this
        cases this
      rcases in_child hin with q | q | q | q
      · exact key i0 (by simp) _ _ _ e1 q
      · exact key i1 (by simp) _ _ _ e2 q
      · exact key i2 (by simp) _ _ _ e3 q
      · exact key i3 (by simp) _ _ _ e4 q

theorem locatePoint_ok {ms : List (Mesh K)} {cs : List (List (List Nat))} (g : Good ms cs) (x : K × K) (level : Nat)
    (hl : level < ms.length) (m : Mesh K) (hm : ms[0]? = some m) :
    ((∃ i a b c, cornersAt m i = some (a, b, c) ∧ InTriangle a b c x) ∧
      ∃ t m' a' b' c', locatePoint (hier ms cs) x level = .ok t ∧ ms[level]? = some m' ∧
        cornersAt m' t = some (a', b', c') ∧ InTriangle a' b' c' x) ∨
    ((∀ i a b c, cornersAt m i = some (a, b, c) → ¬ InTriangle a b c x) ∧
      (locatePoint (hier ms cs) x level).Throws) := by
  have hmesh : (hier ms cs).meshes[0]? = some (cells m) := by
    simp only [hier, List.getElem?_map, hm, Option.map_some]
  have mc := g.conf 0 m hm
  have nd := g.nondeg 0 m hm
  simp only [locatePoint, hmesh]
  rcases findIn_cases (hier ms cs) (cells m) x (List.range (cells m).length) (by simp) with ⟨t, cl, f1, f2, f3, f4⟩ | ⟨f1, f2⟩
  · left
    rw [cells_get mc] at f3
    obtain ⟨a, b, c⟩ := cl
    have hin := (inside_iff (nd t a b c f3)).1 f4
    refine ⟨⟨t, a, b, c, f3, hin⟩, ?_⟩
    rw [f1]
    simp only [Outcome.bind_ok]
    by_cases hpos : level > 0
    · rw [if_pos hpos]
      exact locateRec_ok g x level hl level 0 t (by omega) m hm a b c f3 hin
    · have : level = 0 := by omega
      subst this
      rw [if_neg hpos]
      exact ⟨t, m, a, b, c, rfl, hm, f3, hin⟩
  · right
    refine ⟨?_, ?_⟩
    · intro i a b c hc hin
      have hc' := (cells_get mc i).trans hc
      have := f2 i (List.mem_range.2 (List.getElem?_eq_some_iff.1 hc').1) _ hc'
      rw [show (hier ms cs).inside (a, b, c) x = true from (inside_iff (nd i a b c hc)).2 hin] at this
      cases this
    · rw [f1]; simp

end Verif.HierLocate
