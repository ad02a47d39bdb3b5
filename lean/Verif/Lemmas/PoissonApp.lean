import Verif.Spec.PoissonApp
import Mathlib.Tactic.Ring
import Mathlib.Tactic.Abel
import Mathlib.Tactic.Linarith
import Mathlib.Tactic.FinCases
import Mathlib.Algebra.BigOperators.Fin
/-! Lemmas for the scriptable Poisson solver. -/
namespace Verif.PoissonApp
open Matrix Verif.Spec

section Lists
variable {K : Type}

theorem collect_eq (L : LuaBnd K) (fs : List FaceInfo) (old : List (BCond K)) :
    collect L fs old = old ++ fs.map (faceCond L) := by
  unfold collect
  induction fs generalizing old with
  | nil => simp
  | cons f fs ih => simp [ih]

theorem makeTables_snoc (l : List Bool) (b : Bool) :
    makeTables (l ++ [b]) = tableStep (makeTables l) b := by
  simp [makeTables, List.foldl_append]

theorem makeTables_spec (l : List Bool) :
    TablesMatch l (makeTables l) ∧ (makeTables l).expand.length = l.countP (fun b => b) := by
  induction l using List.reverseRecOn with
  | nil => exact ⟨⟨rfl, by simp, by simp, by simp [makeTables]⟩, rfl⟩
  | append_singleton l b ih =>
    obtain ⟨ih, hn⟩ := ih
    rw [makeTables_snoc]
    generalize makeTables l = t at ih hn
    obtain ⟨c, e⟩ := t
    have hlen : c.length = l.length := ih.len
    have lt_of {i : Nat} {x : Bool} (h : l[i]? = some x) : i < l.length :=
      (List.getElem?_eq_some_iff.1 h).1
    have ltc {i : Nat} {x : Option Nat} (h : c[i]? = some x) : i < c.length :=
      (List.getElem?_eq_some_iff.1 h).1
    have lte {i : Nat} {x : Nat} (h : e[i]? = some x) : i < e.length :=
      (List.getElem?_eq_some_iff.1 h).1
    have spl {i : Nat} {x : Bool} (h : (l ++ [b])[i]? = some x) :
        l[i]? = some x ∨ (i = l.length ∧ b = x) := by
      rcases Nat.lt_trichotomy i l.length with hi | hi | hi
      · left; rwa [List.getElem?_append_left hi] at h
      · right; subst hi; simpa using h
      · rw [List.getElem?_eq_none (by simp; omega)] at h; simp at h
    cases b with
    | false =>
      refine ⟨⟨by simp [tableStep, hlen], ?_, ?_, ?_⟩, by simpa [tableStep] using hn⟩
      · intro i h
        rcases spl h with h | ⟨rfl, -⟩
        · have := ih.out i h
          simp only [tableStep, Bool.false_eq_true, if_false]
          rw [List.getElem?_append_left (ltc this)]; exact this
        · simp [tableStep, ← hlen]
      · intro i h
        rcases spl h with h | ⟨-, h⟩
        · obtain ⟨k, h1, h2⟩ := ih.inn i h
          refine ⟨k, ?_, by simpa [tableStep] using h2⟩
          simp only [tableStep, Bool.false_eq_true, if_false]
          rw [List.getElem?_append_left (ltc h1)]; exact h1
        · simp at h
      · intro k i h
        simp only [tableStep, Bool.false_eq_true, if_false] at h ⊢
        obtain ⟨h1, h2⟩ := ih.exp k i h
        exact ⟨by rw [List.getElem?_append_left (lt_of h1)]; exact h1,
          by rw [List.getElem?_append_left (ltc h2)]; exact h2⟩
    | true =>
      refine ⟨⟨by simp [tableStep, hlen], ?_, ?_, ?_⟩, by simp [tableStep] at hn ⊢; omega⟩
      · intro i h
        rcases spl h with h | ⟨-, h⟩
        · have := ih.out i h
          simp only [tableStep, if_true]
          rw [List.getElem?_append_left (ltc this)]; exact this
        · simp at h
      · intro i h
        simp only [tableStep, if_true]
        rcases spl h with h | ⟨rfl, -⟩
        · obtain ⟨k, h1, h2⟩ := ih.inn i h
          exact ⟨k, by rw [List.getElem?_append_left (ltc h1)]; exact h1,
            by rw [List.getElem?_append_left (lte h2)]; exact h2⟩
        · exact ⟨e.length, by simp [← hlen], by simp [hlen]⟩
      · intro k i h
        simp only [tableStep, if_true] at h ⊢
        rcases Nat.lt_trichotomy k e.length with hk | hk | hk
        · rw [List.getElem?_append_left hk] at h
          obtain ⟨h1, h2⟩ := ih.exp k i h
          exact ⟨by rw [List.getElem?_append_left (lt_of h1)]; exact h1,
            by rw [List.getElem?_append_left (ltc h2)]; exact h2⟩
        · subst hk
          have hi : c.length = i := by simpa using h
          subst hi
          exact ⟨by simp [hlen], by simp⟩
        · rw [List.getElem?_eq_none (by simp; omega)] at h; simp at h

theorem kindOf_dirichlet (o : Option String) : kindOf o = .dirichlet ↔ o = some "dirichlet" := by
  cases o with
  | none => simp [kindOf]
  | some s =>
    unfold kindOf
    by_cases h1 : s = "jump"
    · subst h1; simp
    by_cases h2 : s = "robin"
    · subst h2; simp
    by_cases h3 : s = "neumann"
    · subst h3; simp
    by_cases h4 : s = "dirichlet"
    · subst h4; simp
    simp [h1, h2, h3, h4]

theorem kindOf_names (o : Option String) :
    (kindOf o = .neumann ↔ o = some "neumann") ∧ (kindOf o = .robin ↔ o = some "robin") ∧
      (kindOf o = .jump ↔ o = some "jump") := by
  cases o with
  | none => simp [kindOf]
  | some s =>
    unfold kindOf
    by_cases h1 : s = "jump"
    · subst h1; simp
    by_cases h2 : s = "robin"
    · subst h2; simp
    by_cases h3 : s = "neumann"
    · subst h3; simp
    by_cases h4 : s = "dirichlet"
    · subst h4; simp
    simp [h1, h2, h3, h4]

theorem kindOf_undefined (o : Option String) : kindOf o = .undefined ↔ o = none := by
  cases o with
  | none => simp [kindOf]
  | some s => unfold kindOf; dsimp only; split_ifs <;> simp

theorem kindOf_ne (o : Option String) : kindOf o ≠ .notABoundary := by
  cases o with
  | none => simp [kindOf]
  | some s => unfold kindOf; dsimp only; split_ifs <;> simp

theorem inSystem_iff (L : LuaBnd K) (f : FaceInfo) :
    inSystem f (dirichletFlag (faceCond L f)) = false ↔ WantsStrong L f := by
  unfold inSystem WantsStrong
  cases hb : f.isB
  · simp
  · have h1 : (faceCond L f).kind = kindOf (L.type f.tag) := by simp [faceCond, hb, luaCond]
    have h2 : (faceCond L f).internal = f.isInt := by simp [faceCond, hb]
    have h3 := kindOf_dirichlet (L.type f.tag)
    have h4 := kindOf_undefined (L.type f.tag)
    rw [← h3, ← h4]
    unfold dirichletFlag
    rw [h1, h2]
    by_cases h : kindOf (L.type f.tag) = .dirichlet
    · simp [h]
    · simp [h]

/-- The call on a state with the descriptors `old`. -/
theorem assembleCall_eq (fs : List FaceInfo) (nc : Nat) (s : State K) (c : Call K) :
    assembleCall fs nc s c = .ok
      (⟨s.bi ++ fs.map (faceCond c.lua), newRecdegs s.recdegs nc c⟩,
       List.zipWith inSystem fs (((s.bi ++ fs.map (faceCond c.lua)).take fs.length).map dirichletFlag),
       makeTables (List.zipWith inSystem fs
        (((s.bi ++ fs.map (faceCond c.lua)).take fs.length).map dirichletFlag))) := by
  unfold assembleCall dirichletFlags
  rw [collect_eq]
  simp

end Lists

section Solve
variable {K : Type} [Field K] {nT nF cb fbs : Nat}

theorem sysFace_iff (P : Prob K nT nF cb fbs) (F : Fin nF) : sysFace P F = true ↔ ¬ StrongFace P F := by
  unfold sysFace inSystem StrongFace dirichletFlag
  cases P.isB F <;> cases (P.bc F).kind <;> cases (P.bc F).internal <;> simp

/-- The value of the face unknowns in `sol_full`. -/
def globalFace (P : Prob K nT nF cb fbs) (x : Fin nF → Fin fbs → K) (F : Fin nF) (i : Fin fbs) : K :=
  if sysFace P F then x F i else if (P.bc F).kind = .dirichlet then P.dir F i else 0

/-- The trace every cell sees. -/
def traceOf (P : Prob K nT nF cb fbs) (x : Fin nF → Fin fbs → K) (F : Fin nF) (i : Fin fbs) : K :=
  globalFace P x F i + paJump P F i

theorem strong_of_dirichlet {P : Prob K nT nF cb fbs} (hM : MarkedOnly P) {F : Fin nF}
    (h : (P.bc F).kind = .dirichlet) : sysFace P F = false := by
  have hb : P.isB F = true := by
    by_contra hb
    have := hM F (by simpa using hb)
    rw [h] at this; simp at this
  have : ¬ sysFace P F = true := by
    rw [sysFace_iff]; exact fun h' => h' ⟨hb, .inl h⟩
  simpa using this

theorem faceSol_eq {P : Prob K nT nF cb fbs} (hM : MarkedOnly P) (E : Elem K nF cb fbs)
    (x : Fin nF → Fin fbs → K) :
    faceSol P E x = fun q => globalFace P x (E.face q.1) q.2 := by
  funext q
  unfold faceSol elementDofs strongData globalFace
  by_cases h : (P.bc (E.face q.1)).kind = .dirichlet
  · simp [h, strong_of_dirichlet hM h]
  · by_cases h' : sysFace P (E.face q.1) = true <;> simp [h, h']

theorem assembled_eq (P : Prob K nT nF cb fbs) (E : Elem K nF cb fbs)
    (x : Fin nF → Fin fbs → K) (q : Fin E.nfc × Fin fbs) :
    (if sysFace P (E.face q.1) then x (E.face q.1) q.2 else strongData P E q.1 q.2)
      = globalFace P x (E.face q.1) q.2 := rfl

theorem robin_inl (P : Prob K nT nF cb fbs) (E : Elem K nF cb fbs) (v : Idx E → K) (i : Fin cb) :
    (robinLhs P E *ᵥ v) (.inl i) = 0 := by
  simp only [mulVec, dotProduct]
  exact Finset.sum_eq_zero fun j _ => by cases j <;> simp [robinLhs]

theorem robin_inr (P : Prob K nT nF cb fbs) (E : Elem K nF cb fbs) (v : Idx E → K) (fi : Fin E.nfc)
    (i : Fin fbs) : (robinLhs P E *ᵥ v) (.inr (fi, i)) = paRobin P E v fi i := by
  simp only [mulVec, dotProduct, Fintype.sum_sum_type, Fintype.sum_prod_type, robinLhs, paRobin]
  rw [Finset.sum_eq_single fi]
  · by_cases h : (P.bc (E.face fi)).kind = .robin
    · simp [h, Finset.mul_sum, mul_assoc]
    · simp [h]
  · intro b _ hb
    exact Finset.sum_eq_zero fun j _ => by simp [Ne.symm hb]
  · simp

theorem lhs_inl (P : Prob K nT nF cb fbs) (E : Elem K nF cb fbs) (v : Idx E → K) (i : Fin cb) :
    (lhs P E *ᵥ v) (.inl i) = (E.A *ᵥ v) (.inl i) := by
  rw [lhs, add_mulVec, Pi.add_apply, robin_inl, add_zero]

theorem lhs_inr (P : Prob K nT nF cb fbs) (E : Elem K nF cb fbs) (v : Idx E → K) (fi : Fin E.nfc)
    (i : Fin fbs) : (lhs P E *ᵥ v) (.inr (fi, i)) = (E.A *ᵥ v) (.inr (fi, i)) + paRobin P E v fi i := by
  rw [lhs, add_mulVec, Pi.add_apply, robin_inr]

theorem lhs11 (P : Prob K nT nF cb fbs) (E : Elem K nF cb fbs) :
    (lhs P E).toBlocks₁₁ = E.A.toBlocks₁₁ := by
  ext i j; simp [lhs, toBlocks₁₁, robinLhs]

theorem blocks_inl (P : Prob K nT nF cb fbs) (E : Elem K nF cb fbs) (v : Idx E → K) :
    (lhs P E *ᵥ v) ∘ Sum.inl
      = (lhs P E).toBlocks₁₁ *ᵥ (v ∘ Sum.inl) + (lhs P E).toBlocks₁₂ *ᵥ (v ∘ Sum.inr) := by
  funext i
  simp [mulVec, dotProduct, Fintype.sum_sum_type, toBlocks₁₁, toBlocks₁₂]

theorem blocks_inr (P : Prob K nT nF cb fbs) (E : Elem K nF cb fbs) (v : Idx E → K) :
    (lhs P E *ᵥ v) ∘ Sum.inr
      = (lhs P E).toBlocks₂₁ *ᵥ (v ∘ Sum.inl) + (lhs P E).toBlocks₂₂ *ᵥ (v ∘ Sum.inr) := by
  funext i
  simp [mulVec, dotProduct, Fintype.sum_sum_type, toBlocks₂₁, toBlocks₂₂]

theorem wd_inl (P : Prob K nT nF cb fbs) (E : Elem K nF cb fbs) : wddofs P E ∘ Sum.inl = 0 := by
  funext i; simp [wddofs]
theorem wd_inr (P : Prob K nT nF cb fbs) (E : Elem K nF cb fbs) :
    wddofs P E ∘ Sum.inr = fun q => paJump P (E.face q.1) q.2 := by
  funext ⟨fi, i⟩; simp [wddofs, paJump]

/-- The traces of a cell. -/
def tr (P : Prob K nT nF cb fbs) (E : Elem K nF cb fbs) (x : Fin nF → Fin fbs → K) :
    Fin E.nfc × Fin fbs → K := fun q => traceOf P x (E.face q.1) q.2

theorem rhs_inl (P : Prob K nT nF cb fbs) (E : Elem K nF cb fbs) :
    rhs P E ∘ Sum.inl = E.load - (lhs P E).toBlocks₁₂ *ᵥ (wddofs P E ∘ Sum.inr) := by
  have h := blocks_inl P E (wddofs P E)
  rw [wd_inl, mulVec_zero, zero_add] at h
  rw [← h]
  funext i
  simp [rhs, loadVec, weakData, sub_eq_add_neg]

theorem rhs_inr (P : Prob K nT nF cb fbs) (E : Elem K nF cb fbs) :
    rhs P E ∘ Sum.inr = (fun q => paFlux P E q.1 q.2)
      - (lhs P E).toBlocks₂₂ *ᵥ (wddofs P E ∘ Sum.inr) := by
  have h := blocks_inr P E (wddofs P E)
  rw [wd_inl, mulVec_zero, zero_add] at h
  rw [← h]
  funext ⟨fi, i⟩
  have : weakData P E (.inr (fi, i)) = paFlux P E fi i := by
    unfold weakData paFlux
    by_cases h1 : (P.bc (E.face fi)).kind = .neumann
    · simp [h1]
    · by_cases h2 : (P.bc (E.face fi)).kind = .jump <;> simp [h1, h2]
  simp only [rhs, loadVec, Function.comp, Pi.add_apply, Pi.neg_apply, Pi.sub_apply, Sum.elim_inr, this]
  ring

theorem cellSol_eq {P : Prob K nT nF cb fbs} (hM : MarkedOnly P) (E : Elem K nF cb fbs)
    (x : Fin nF → Fin fbs → K) :
    cellSol P E x = (E.A.toBlocks₁₁)⁻¹ *ᵥ (E.load - (lhs P E).toBlocks₁₂ *ᵥ tr P E x) := by
  have ht : tr P E x = wddofs P E ∘ Sum.inr + faceSol P E x := by
    rw [wd_inr, faceSol_eq hM]; funext q; simp [tr, traceOf, add_comm]
  unfold cellSol
  rw [rhs_inl, ht, mulVec_add, lhs11, sub_sub]

theorem rowResidual_eq {P : Prob K nT nF cb fbs} (hM : MarkedOnly P) (E : Elem K nF cb fbs)
    (x : Fin nF → Fin fbs → K) (fi : Fin E.nfc) (i : Fin fbs) :
    rowResidual P E x (fi, i) =
      (lhs P E *ᵥ Sum.elim (cellSol P E x) (tr P E x)) (.inr (fi, i)) - paFlux P E fi i := by
  have ht : tr P E x = wddofs P E ∘ Sum.inr + faceSol P E x := by
    rw [wd_inr, faceSol_eq hM]; funext q; simp [tr, traceOf, add_comm]
  have h1 : rowResidual P E x = lhsC P E *ᵥ faceSol P E x - rhsC P E := by
    funext p
    simp only [rowResidual, assembled_eq, faceSol_eq hM, Pi.sub_apply, mulVec, dotProduct]
  have h2 := blocks_inr P E (Sum.elim (cellSol P E x) (tr P E x))
  have h3 : (lhs P E *ᵥ Sum.elim (cellSol P E x) (tr P E x)) (.inr (fi, i))
      = ((lhs P E *ᵥ Sum.elim (cellSol P E x) (tr P E x)) ∘ Sum.inr) (fi, i) := rfl
  rw [h3, h2, Sum.elim_comp_inl, Sum.elim_comp_inr, h1]
  have h4 : lhsC P E *ᵥ faceSol P E x - rhsC P E =
      (lhs P E).toBlocks₂₁ *ᵥ cellSol P E x + (lhs P E).toBlocks₂₂ *ᵥ tr P E x
        - fun q => paFlux P E q.1 q.2 := by
    unfold lhsC rhsC cellSol
    rw [rhs_inr, ht, sub_mulVec, mulVec_add, mulVec_sub, mulVec_sub, ← mulVec_mulVec, ← mulVec_mulVec]
    abel
  rw [h4]
  simp

theorem seen_all {P : Prob K nT nF cb fbs} (E : Elem K nF cb fbs) (u : Fin cb → K)
    (x : Fin nF → Fin fbs → K) :
    paSeen E True (paJump P) u (globalFace P x) = Sum.elim u (tr P E x) := by
  funext k
  cases k <;> simp [paSeen, tr, traceOf]

theorem cell_row {P : Prob K nT nF cb fbs} (hM : MarkedOnly P) (E : Elem K nF cb fbs)
    (hE : IsUnit E.A.toBlocks₁₁.det) (x : Fin nF → Fin fbs → K) (i : Fin cb) :
    (E.A *ᵥ Sum.elim (cellSol P E x) (tr P E x)) (.inl i) = E.load i := by
  rw [← lhs_inl P]
  have h2 := blocks_inl P E (Sum.elim (cellSol P E x) (tr P E x))
  have h3 : (lhs P E *ᵥ Sum.elim (cellSol P E x) (tr P E x)) (.inl i)
      = ((lhs P E *ᵥ Sum.elim (cellSol P E x) (tr P E x)) ∘ Sum.inl) i := rfl
  rw [h3, h2, Sum.elim_comp_inl, Sum.elim_comp_inr, cellSol_eq hM, lhs11, mulVec_mulVec,
    mul_nonsing_inv _ hE, one_mulVec]
  simp

end Solve
end Verif.PoissonApp
