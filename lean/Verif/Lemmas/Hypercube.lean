import Verif.Model.Hypercube
import Verif.Props.Neighbours
import Mathlib.Tactic.Linarith
import Mathlib.Tactic.NormNum
/-! Lemmas for Hypercube.lean. -/
namespace Verif.Props.Hypercube
open Verif.Lookup Verif.MeshTopo Verif.Neighbours Verif.Spec Verif.Hypercube

variable {K : Type} [Field K] [LinearOrder K] [IsStrictOrderedRing K]

theorem near_bounds (t s : K) (h : t * t + s ≤ 1) (hs : 0 ≤ s) :
    (nearMinus t ↔ t < -(99 / 100)) ∧ (nearPlus t ↔ 99 / 100 < t) := by
  unfold nearMinus nearPlus
  refine ⟨⟨fun h => h.2, fun h' => ⟨?_, h'⟩⟩, ⟨fun h => h.1, fun h' => ⟨h', ?_⟩⟩⟩ <;> nlinarith

theorem excl (x y : K) (h : x * x + y * y ≤ 1) : ¬ (x < -(99 / 100) ∧ y < -(99 / 100)) ∧ ¬ (x < -(99 / 100) ∧ 99 / 100 < y) ∧
    ¬ (99 / 100 < x ∧ y < -(99 / 100)) ∧ ¬ (99 / 100 < x ∧ 99 / 100 < y) := by
  refine ⟨?_, ?_, ?_, ?_⟩ <;> rintro ⟨h1, h2⟩ <;> nlinarith

theorem pick4 (p1 p2 p3 p4 : Prop) [Decidable p1] [Decidable p2] [Decidable p3] [Decidable p4]
    (e1 : ¬ (p1 ∧ p3)) (e2 : ¬ (p1 ∧ p4)) (e3 : ¬ (p2 ∧ p3)) (e4 : ¬ (p2 ∧ p4)) (e5 : ¬ (p1 ∧ p2)) (e6 : ¬ (p3 ∧ p4)) :
    let r : Option Nat := if p1 then some 3 else if p2 then some 1 else if p3 then some 0 else if p4 then some 2 else none
    (r = some 3 ↔ p1) ∧ (r = some 1 ↔ p2) ∧ (r = some 0 ↔ p3) ∧ (r = some 2 ↔ p4) ∧ (r = none ↔ (¬ p1 ∧ ¬ p2) ∧ (¬ p3 ∧ ¬ p4)) := by
  by_cases h1 : p1
  · simp_all
  by_cases h2 : p2
  · simp_all
  by_cases h3 : p3
  · simp_all
  by_cases h4 : p4 <;> simp_all

theorem pick6 (p1 p2 p3 p4 p5 p6 : Prop) [Decidable p1] [Decidable p2] [Decidable p3] [Decidable p4] [Decidable p5]
    [Decidable p6]
    (e1 : ¬ (p1 ∧ p3)) (e2 : ¬ (p1 ∧ p4)) (e3 : ¬ (p2 ∧ p3)) (e4 : ¬ (p2 ∧ p4)) (e5 : ¬ (p1 ∧ p2)) (e6 : ¬ (p3 ∧ p4))
    (f1 : ¬ (p1 ∧ p5)) (f2 : ¬ (p1 ∧ p6)) (f3 : ¬ (p2 ∧ p5)) (f4 : ¬ (p2 ∧ p6)) (f5 : ¬ (p5 ∧ p6))
    (g1 : ¬ (p3 ∧ p5)) (g2 : ¬ (p3 ∧ p6)) (g3 : ¬ (p4 ∧ p5)) (g4 : ¬ (p4 ∧ p6)) :
    let r : Option Nat := if p1 then some 2 else if p2 then some 5 else if p3 then some 1 else if p4 then some 4
      else if p5 then some 0 else if p6 then some 3 else none
    (r = some 2 ↔ p1) ∧ (r = some 5 ↔ p2) ∧ (r = some 1 ↔ p3) ∧ (r = some 4 ↔ p4) ∧ (r = some 0 ↔ p5) ∧
      (r = some 3 ↔ p6) ∧ (r = none ↔ (¬ p1 ∧ ¬ p2) ∧ (¬ p3 ∧ ¬ p4) ∧ (¬ p5 ∧ ¬ p6)) := by
  by_cases h1 : p1
  · simp_all
  by_cases h2 : p2
  · simp_all
  by_cases h3 : p3
  · simp_all
  by_cases h4 : p4
  · simp_all
  by_cases h5 : p5
  · simp_all
  by_cases h6 : p6 <;> simp_all

variable {C F : Type} [LinearOrder C] [LinearOrder F]

/-- `f` is a face of the cell `c` and of no other cell. -/
def Exterior (m : Mesh C F) (c : C) (f : F) : Prop :=
  c ∈ m.cells ∧ f ∈ m.facesOf c ∧ ∀ c', ¬ OtherCell m.cells m.facesOf c f c'

theorem setMark_setMark (k k' : Nat) (d : BDesc) : setMark k (setMark k' d) = setMark k d := rfl

theorem exterior_unique (m : Mesh C F) (c c' : C) (f : F) (h : Exterior m c f) (h' : c' ∈ m.cells)
    (hf : f ∈ m.facesOf c') : c' = c := by
  by_contra hne
  exact h.2.2 c' ⟨h', hne, hf⟩

theorem neighbour_cases (m : Mesh C F) (hc : StrictSorted m.cells) (hs : StrictSorted m.faces)
    (hn : ∀ c ∈ m.cells, (m.facesOf c).Nodup) (o : List Owner) (ho : connectivity m = .ok o) (c : C) (hcm : c ∈ m.cells)
    (f : F) (hf : f ∈ m.facesOf c) :
    (∃ c', neighbourVia m o c f = .ok (c', true) ∧ ¬ Exterior m c f) ∨
    (∃ c', neighbourVia m o c f = .ok (c', false) ∧ Exterior m c f) := by
  rcases c16_neighbour m hc hs hn o ho c hcm f hf with ⟨c', h1, h2, _⟩ | ⟨⟨c0, h1⟩, h2⟩
  · exact .inl ⟨c', h1, fun h => h.2.2 c' h2⟩
  · exact .inr ⟨c0, h1, hcm, hf, h2⟩

theorem renumLoop_true (m : Mesh C F) (hc : StrictSorted m.cells) (hs : StrictSorted m.faces)
    (hn : ∀ c ∈ m.cells, (m.facesOf c).Nodup) (hm : ∀ c ∈ m.cells, ∀ f ∈ m.facesOf c, f ∈ m.faces)
    (o : List Owner) (ho : connectivity m = .ok o) (num : C → F → Option Nat) (ps : List (C × F))
    (hps : ∀ x ∈ ps, x.1 ∈ m.cells ∧ x.2 ∈ m.facesOf x.1) (b : List BDesc) (hb : b.length = m.faces.length)
    (hnum : ∀ x ∈ ps, Exterior m x.1 x.2 → num x.1 x.2 ≠ none) :
    ∃ b', renumLoop m o num ps b = .ok (true, b') ∧ b'.length = b.length ∧
      (∀ (i : Nat) (f : F) (c : C) (k : Nat), m.faces[i]? = some f → (c, f) ∈ ps → Exterior m c f → num c f = some k →
        b'[i]? = (b[i]?).map (setMark k)) ∧
      (∀ (i : Nat) (f : F), m.faces[i]? = some f → (∀ c, (c, f) ∈ ps → ¬ Exterior m c f) → b'[i]? = b[i]?) := by
  induction ps generalizing b with
  | nil => exact ⟨b, rfl, rfl, fun i f c k _ h => absurd h (by simp), fun _ _ _ _ => rfl⟩
  | cons x ps ih =>
    obtain ⟨c, f⟩ := x
    obtain ⟨hcm, hf⟩ := hps (c, f) (by simp)
    rcases neighbour_cases m hc hs hn o ho c hcm f hf with ⟨c', h1, h2⟩ | ⟨c', h1, h2⟩
    · obtain ⟨b', i1, i2, i3, i4⟩ := ih (fun y hy => hps y (by simp [hy])) b hb (fun y hy => hnum y (by simp [hy]))
      refine ⟨b', by simp only [renumLoop, h1, Outcome.bind_ok, if_true]; exact i1, i2, ?_, ?_⟩
      · intro i g d k hg hmem hE hk
        rw [List.mem_cons] at hmem
        rcases hmem with hmem | hmem
        · cases hmem; exact absurd hE h2
        · exact i3 i g d k hg hmem hE hk
      · intro i g hg hno
        exact i4 i g hg (fun d hd => hno d (by simp [hd]))
    · obtain ⟨j, hj, hjf⟩ := List.mem_iff_getElem.1 (hm c hcm f hf)
      have hoff : offset m.faces f = .ok j := by rw [← hjf]; exact (c04_offset_stored_partial m.faces hs j hj).1
      cases hk : num c f with
      | none => exact absurd hk (hnum (c, f) (by simp) h2)
      | some k =>
        have hjb : j < b.length := by omega
        obtain ⟨b', i1, i2, i3, i4⟩ := ih (fun y hy => hps y (by simp [hy])) (b.set j (setMark k b[j])) (by simpa using hb)
          (fun y hy => hnum y (by simp [hy]))
        have hjq : ∀ (i : Nat) (g : F), m.faces[i]? = some g → (i = j ↔ g = f) := by
          intro i g hg
          have hnd := strictSorted_nodup m.faces hs
          constructor
          · rintro rfl
            rw [List.getElem?_eq_getElem hj, hjf] at hg
            exact (Option.some.inj hg).symm
          · rintro rfl
            obtain ⟨hi, hig⟩ := List.getElem?_eq_some_iff.1 hg
            exact (List.Nodup.getElem_inj_iff hnd).1 (hig.trans hjf.symm)
        refine ⟨b', ?_, by simpa using i2, ?_, ?_⟩
        · simp only [renumLoop, h1, Outcome.bind_ok, hk, hoff, List.getElem?_eq_getElem hjb]
          exact i1
        · intro i g d k' hg hmem hE hk'
          by_cases hex : ∃ e, (e, g) ∈ ps ∧ Exterior m e g
          · obtain ⟨e, he1, he2⟩ := hex
            have hed : d = e := exterior_unique m e d g he2 hE.1 hE.2.1
            subst hed
            rw [i3 i g d k' hg he1 he2 hk']
            by_cases hij : i = j
            · subst hij
              rw [List.getElem?_set_self hjb, List.getElem?_eq_getElem hjb]
              rfl
            · rw [List.getElem?_set_ne (Ne.symm hij)]
          · rw [List.mem_cons] at hmem
            rcases hmem with hmem | hmem
            · cases hmem
              rw [i4 i f hg (fun e he hE' => hex ⟨e, he, hE'⟩)]
              have hij : i = j := (hjq i f hg).2 rfl
              subst hij
              rw [hk] at hk'
              cases hk'
              rw [List.getElem?_set_self hjb, List.getElem?_eq_getElem hjb]
              rfl
            · exact absurd ⟨d, hmem, hE⟩ hex
        · intro i g hg hno
          rw [i4 i g hg (fun e he => hno e (by simp [he]))]
          have hij : i ≠ j := by
            intro h
            have := (hjq i g hg).1 h
            subst this
            exact hno c (by simp) h2
          rw [List.getElem?_set_ne (Ne.symm hij)]

theorem renumLoop_false (m : Mesh C F) (hc : StrictSorted m.cells) (hs : StrictSorted m.faces)
    (hn : ∀ c ∈ m.cells, (m.facesOf c).Nodup) (hm : ∀ c ∈ m.cells, ∀ f ∈ m.facesOf c, f ∈ m.faces)
    (o : List Owner) (ho : connectivity m = .ok o) (num : C → F → Option Nat) (ps : List (C × F))
    (hps : ∀ x ∈ ps, x.1 ∈ m.cells ∧ x.2 ∈ m.facesOf x.1) (b : List BDesc) (hb : b.length = m.faces.length)
    (hnum : ∃ x ∈ ps, Exterior m x.1 x.2 ∧ num x.1 x.2 = none) :
    ∃ b', renumLoop m o num ps b = .ok (false, b') := by
  induction ps generalizing b with
  | nil => obtain ⟨x, hx, _⟩ := hnum; simp at hx
  | cons x ps ih =>
    obtain ⟨c, f⟩ := x
    obtain ⟨hcm, hf⟩ := hps (c, f) (by simp)
    rcases neighbour_cases m hc hs hn o ho c hcm f hf with ⟨c', h1, h2⟩ | ⟨c', h1, h2⟩
    · simp only [renumLoop, h1, Outcome.bind_ok, if_true]
      apply ih (fun y hy => hps y (by simp [hy])) b hb
      obtain ⟨y, hy, hE, hk⟩ := hnum
      rw [List.mem_cons] at hy
      rcases hy with rfl | hy
      · exact absurd hE h2
      · exact ⟨y, hy, hE, hk⟩
    · obtain ⟨j, hj, hjf⟩ := List.mem_iff_getElem.1 (hm c hcm f hf)
      have hoff : offset m.faces f = .ok j := by rw [← hjf]; exact (c04_offset_stored_partial m.faces hs j hj).1
      cases hk : num c f with
      | none => exact ⟨b, by simp only [renumLoop, h1, Outcome.bind_ok, hk]; rfl⟩
      | some k =>
        have hjb : j < b.length := by omega
        simp only [renumLoop, h1, Outcome.bind_ok, hk, hoff, List.getElem?_eq_getElem hjb]
        apply ih (fun y hy => hps y (by simp [hy])) _ (by simpa using hb)
        obtain ⟨y, hy, hE, hk'⟩ := hnum
        rw [List.mem_cons] at hy
        rcases hy with rfl | hy
        · simp only at hk'; rw [hk] at hk'; cases hk'
        · exact ⟨y, hy, hE, hk'⟩

end Verif.Props.Hypercube
