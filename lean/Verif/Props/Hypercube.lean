import Verif.Lemmas.Hypercube
import Verif.Model.Hypercube
import Verif.Props.Neighbours
import Mathlib.Tactic.Linarith
import Mathlib.Tactic.NormNum
/-!
Property C34.
-/
namespace Verif.Props.Hypercube
open Verif.Lookup Verif.MeshTopo Verif.Neighbours Verif.Spec Verif.Hypercube

variable {K : Type} [Field K] [LinearOrder K] [IsStrictOrderedRing K]

/-- C34. In two dimensions the number of a unit normal is determined by the coordinate direction it is close
to: 3 for `-x`, 1 for `+x`, 0 for `-y`, 2 for `+y`, none otherwise. -/
theorem c34_number2 (x y : K) (h : x * x + y * y = 1) :
    (boundaryNumber2 (x, y) = some 3 ↔ x < -(99 / 100)) ∧ (boundaryNumber2 (x, y) = some 1 ↔ 99 / 100 < x) ∧
    (boundaryNumber2 (x, y) = some 0 ↔ y < -(99 / 100)) ∧ (boundaryNumber2 (x, y) = some 2 ↔ 99 / 100 < y) ∧
    (boundaryNumber2 (x, y) = none ↔ (-(99 / 100) ≤ x ∧ x ≤ 99 / 100) ∧ (-(99 / 100) ≤ y ∧ y ≤ 99 / 100)) := by
  obtain ⟨a1, a2⟩ := near_bounds x (y * y) (le_of_eq h) (mul_self_nonneg y)
  obtain ⟨b1, b2⟩ := near_bounds y (x * x) (by linarith) (mul_self_nonneg x)
  obtain ⟨e1, e2, e3, e4⟩ := excl x y (le_of_eq h)
  have e5 : ¬ (x < -(99 / 100) ∧ 99 / 100 < x) := by rintro ⟨p, q⟩; linarith
  have e6 : ¬ (y < -(99 / 100) ∧ 99 / 100 < y) := by rintro ⟨p, q⟩; linarith
  simp only [boundaryNumber2, a1, a2, b1, b2]
  rw [← not_lt, ← not_lt, ← not_lt, ← not_lt]
  exact pick4 _ _ _ _ e1 e2 e3 e4 e5 e6

example : (1 : ℚ) * 1 + 0 * 0 = 1 := by norm_num

/-- C34. In three dimensions: 2 for `-x`, 5 for `+x`, 1 for `-y`, 4 for `+y`, 0 for `-z`, 3 for `+z`, none
otherwise. -/
theorem c34_number3 (x y z : K) (h : x * x + y * y + z * z = 1) :
    (boundaryNumber3 (x, y, z) = some 2 ↔ x < -(99 / 100)) ∧ (boundaryNumber3 (x, y, z) = some 5 ↔ 99 / 100 < x) ∧
    (boundaryNumber3 (x, y, z) = some 1 ↔ y < -(99 / 100)) ∧ (boundaryNumber3 (x, y, z) = some 4 ↔ 99 / 100 < y) ∧
    (boundaryNumber3 (x, y, z) = some 0 ↔ z < -(99 / 100)) ∧ (boundaryNumber3 (x, y, z) = some 3 ↔ 99 / 100 < z) ∧
    (boundaryNumber3 (x, y, z) = none ↔ (-(99 / 100) ≤ x ∧ x ≤ 99 / 100) ∧ (-(99 / 100) ≤ y ∧ y ≤ 99 / 100) ∧
      (-(99 / 100) ≤ z ∧ z ≤ 99 / 100)) := by
  have hx := mul_self_nonneg x
  have hy := mul_self_nonneg y
  have hz := mul_self_nonneg z
  obtain ⟨a1, a2⟩ := near_bounds x (y * y + z * z) (by linarith) (by linarith)
  obtain ⟨b1, b2⟩ := near_bounds y (x * x + z * z) (by linarith) (by linarith)
  obtain ⟨c1, c2⟩ := near_bounds z (x * x + y * y) (by linarith) (by linarith)
  obtain ⟨e1, e2, e3, e4⟩ := excl x y (by linarith)
  obtain ⟨f1, f2, f3, f4⟩ := excl x z (by linarith)
  obtain ⟨g1, g2, g3, g4⟩ := excl y z (by linarith)
  have e5 : ¬ (x < -(99 / 100) ∧ 99 / 100 < x) := by rintro ⟨p, q⟩; linarith
  have e6 : ¬ (y < -(99 / 100) ∧ 99 / 100 < y) := by rintro ⟨p, q⟩; linarith
  have e7 : ¬ (z < -(99 / 100) ∧ 99 / 100 < z) := by rintro ⟨p, q⟩; linarith
  simp only [boundaryNumber3, a1, a2, b1, b2, c1, c2]
  rw [← not_lt, ← not_lt, ← not_lt, ← not_lt, ← not_lt, ← not_lt]
  exact pick6 _ _ _ _ _ _ e1 e2 e3 e4 e5 e6 f1 f2 f3 f4 e7 g1 g2 g3 g4

example : (0 : ℚ) * 0 + 0 * 0 + (-1) * (-1) = 1 := by norm_num

variable {C F : Type} [LinearOrder C] [LinearOrder F]

/-- C34. On a mesh with sorted cells and faces where every face is stored and shared by at most two cells,
renumbering returns true exactly when every face belonging to one cell only has a boundary number. It then
marks exactly these faces as boundary, with that number, and leaves the other faces alone. -/
theorem c34_renumber (m : Mesh C F) (hc : StrictSorted m.cells) (hs : StrictSorted m.faces)
    (hn : ∀ c ∈ m.cells, (m.facesOf c).Nodup) (hm : ∀ c ∈ m.cells, ∀ f ∈ m.facesOf c, f ∈ m.faces)
    (h2 : ∀ f, occurrences m.cells m.facesOf f ≤ 2) (hb : m.binfo.length = m.faces.length) (num : C → F → Option Nat) :
    ((∀ c f, Exterior m c f → num c f ≠ none) →
      ∃ b, renumber m num = .ok (true, b) ∧ b.length = m.binfo.length ∧
        (∀ (i : Nat) (f : F) (c : C) (k : Nat), m.faces[i]? = some f → Exterior m c f → num c f = some k →
          ∃ d, b[i]? = some d ∧ d.isB = true ∧ d.isInt = false ∧ d.id = k) ∧
        (∀ (i : Nat) (f : F), m.faces[i]? = some f → (∀ c, ¬ Exterior m c f) → b[i]? = m.binfo[i]?)) ∧
    ((∃ c f, Exterior m c f ∧ num c f = none) → ∃ b, renumber m num = .ok (false, b)) := by
  obtain ⟨o, ho, _⟩ := (c16_compute m hs).1 ⟨hm, h2⟩
  have hps : ∀ x ∈ m.cells.flatMap (fun c => (m.facesOf c).map fun f => (c, f)), x.1 ∈ m.cells ∧ x.2 ∈ m.facesOf x.1 := by
    intro x hx
    simp only [List.mem_flatMap, List.mem_map] at hx
    obtain ⟨c, hc, f, hf, rfl⟩ := hx
    exact ⟨hc, hf⟩
  have hmem : ∀ c f, Exterior m c f → (c, f) ∈ m.cells.flatMap (fun c => (m.facesOf c).map fun f => (c, f)) := by
    intro c f h
    simp only [List.mem_flatMap, List.mem_map]
    exact ⟨c, h.1, f, h.2.1, rfl⟩
  constructor
  · intro hnum
    obtain ⟨b, h1, h2, h3, h4⟩ := renumLoop_true m hc hs hn hm o ho num _ hps m.binfo hb (fun x _ hE => hnum _ _ hE)
    refine ⟨b, by simp only [renumber, ho, Outcome.bind_ok]; exact h1, h2, ?_, ?_⟩
    · intro i f c k hf hE hk
      have := h3 i f c k hf (hmem c f hE) hE hk
      have hi : i < m.binfo.length := by
        rw [hb]; exact (List.getElem?_eq_some_iff.1 hf).1
      rw [List.getElem?_eq_getElem hi] at this
      exact ⟨setMark k m.binfo[i], this, rfl, rfl, rfl⟩
    · intro i f hf hno
      exact h4 i f hf (fun c _ => hno c)
  · rintro ⟨c, f, hE, hk⟩
    obtain ⟨b, h⟩ := renumLoop_false m hc hs hn hm o ho num _ hps m.binfo hb ⟨(c, f), hmem c f hE, hE, hk⟩
    exact ⟨b, by simp only [renumber, ho, Outcome.bind_ok]; exact h⟩

/-- The two triangles of `exM` with all exterior faces numbered 1: a run of the model. -/
example : ∃ b, renumber exM (fun _ _ => some 1) = .ok (true, b) ∧ b.map BDesc.isB = [true, true, true, true, true] ∧
    b.map BDesc.id = [1, 1, 5, 1, 1] := by
  refine ⟨[⟨1, 1, true, false⟩, ⟨1, 1, true, false⟩, ⟨5, 5, true, false⟩, ⟨1, 1, true, false⟩, ⟨1, 1, true, false⟩], ?_, by decide, by decide⟩
  decide +kernel

example : ∃ b, renumber exM (fun _ f => if f = 3 then none else some 1) = .ok (false, b) :=
  ⟨[⟨1, 1, true, false⟩, ⟨1, 1, true, false⟩, ⟨5, 5, true, false⟩, .default, .default], by decide +kernel⟩

end Verif.Props.Hypercube
