import Verif.Model.MeshTopo
import Verif.Props.Lookup
import Mathlib.Data.List.Basic
/-! Lemmas on the skipping iterator and the boundary queries. -/
namespace Verif.MeshTopo
open Verif.Lookup Verif.Spec

/-- The iterator with a predicate that never throws stops at the first match at or after `pos`. -/
theorem findNext_spec {α : Type} (p : α → Outcome Bool) (q : α → Bool) (l : List α)
    (hq : ∀ x ∈ l, p x = .ok (q x)) (pos : Nat) (hpos : pos ≤ l.length) :
    ∃ r, findNext p l pos = .ok r ∧ pos ≤ r ∧ r ≤ l.length ∧
      (l.drop pos).filter q = (l.drop r).filter q ∧
      (∀ h : r < l.length, q l[r] = true) := by
  induction hn : l.length - pos generalizing pos with
  | zero =>
    refine ⟨pos, ?_, le_rfl, hpos, rfl, ?_⟩
    · rw [findNext, dif_neg (by omega)]
    · intro h; omega
  | succ n ih =>
    have hlt : pos < l.length := by omega
    rw [findNext, dif_pos hlt, hq _ (List.getElem_mem hlt)]
    simp only [Outcome.bind_ok]
    by_cases hb : q l[pos] = true
    · rw [if_pos hb]
      exact ⟨pos, rfl, le_rfl, hpos, rfl, fun _ => hb⟩
    · rw [if_neg hb]
      obtain ⟨r, h1, h2, h3, h4, h5⟩ := ih (pos + 1) (by omega) (by omega)
      refine ⟨r, h1, by omega, h3, ?_, h5⟩
      rw [← h4, List.drop_eq_getElem_cons hlt, List.filter_cons, if_neg hb]

theorem filterLoop_spec {α : Type} (p : α → Outcome Bool) (q : α → Bool) (l : List α)
    (hq : ∀ x ∈ l, p x = .ok (q x)) (fuel pos : Nat) (hpos : pos ≤ l.length)
    (hf : l.length - pos ≤ fuel) (hfound : ∀ h : pos < l.length, q l[pos] = true) :
    filterLoop p l fuel pos = .ok ((l.drop pos).filter q) := by
  induction fuel generalizing pos with
  | zero =>
    have : pos = l.length := by omega
    subst this
    simp [filterLoop]
  | succ n ih =>
    rw [filterLoop]
    by_cases he : pos = l.length
    · subst he; simp
    · have hlt : pos < l.length := by omega
      rw [if_neg he, List.getElem?_eq_getElem hlt]
      simp only [filterNext]
      rw [if_pos he]
      obtain ⟨r, h1, h2, h3, h4, h5⟩ := findNext_spec p q l hq (pos + 1) (by omega)
      rw [h1]
      simp only [Outcome.bind_ok]
      rw [ih r h3 (by omega) h5]
      simp only [Outcome.bind_ok]
      rw [← h4, List.drop_eq_getElem_cons hlt, List.filter_cons, if_pos (hfound hlt)]

theorem filter_iterate {α : Type} (p : α → Outcome Bool) (q : α → Bool) (l : List α)
    (hq : ∀ x ∈ l, p x = .ok (q x)) :
    ((filterBegin p l 0).bind fun b => filterLoop p l l.length b) = .ok (l.filter q) := by
  unfold filterBegin
  by_cases h0 : (0 : Nat) ≠ l.length
  · rw [if_pos h0]
    obtain ⟨r, h1, h2, h3, h4, h5⟩ := findNext_spec p q l hq 0 (by omega)
    rw [h1]
    simp only [Outcome.bind_ok]
    rw [filterLoop_spec p q l hq _ r h3 (by omega) h5, ← h4]
    simp
  · rw [if_neg h0]
    have : l = [] := by
      cases l with
      | nil => rfl
      | cons _ _ => simp at h0
    subst this
    simp [filterLoop]

section
variable {C F : Type} [LinearOrder F]

/-- Well-formed storage: faces strictly sorted, one descriptor per face. -/
structure WF (m : Mesh C F) : Prop where
  sorted : StrictSorted m.faces
  size : m.binfo.length = m.faces.length

theorem lookup_getElem (m : Mesh C F) (hw : WF m) (i : Nat) (h : i < m.faces.length) :
    lookup m.faces m.faces[i] = .ok (Ident.Ident.mk' i) :=
  (c04_offset_stored_partial m.faces hw.sorted i h).2

theorem isBoundary_getElem (m : Mesh C F) (hw : WF m) (i : Nat) (h : i < m.faces.length) :
    isBoundary m m.faces[i] = .ok (m.binfo[i]'(hw.size ▸ h)).isB := by
  have h' : i < m.binfo.length := hw.size ▸ h
  unfold isBoundary sizeOk binfoAt
  rw [if_pos hw.size, lookup_getElem m hw i h]
  simp [Ident.Ident.mk', Ident.Ident.conv, h']

theorem isBoundaryId_getElem (m : Mesh C F) (hw : WF m) (i : Nat) (h : i < m.faces.length) :
    isBoundaryId m i = .ok (m.binfo[i]'(hw.size ▸ h)).isB := by
  have h' : i < m.binfo.length := hw.size ▸ h
  unfold isBoundaryId sizeOk binfoAt
  rw [if_pos hw.size]
  simp [h']

theorem boundaryIdOfId_getElem (m : Mesh C F) (hw : WF m) (i : Nat) (h : i < m.faces.length) :
    boundaryIdOfId m i = if (m.binfo[i]'(hw.size ▸ h)).isB then .ok (m.binfo[i]'(hw.size ▸ h)).id
      else .throws "Face is not a boundary." := by
  have h' : i < m.binfo.length := hw.size ▸ h
  unfold boundaryIdOfId sizeOk
  rw [if_pos hw.size, isBoundaryId_getElem m hw i h]
  simp only [Outcome.bind_ok, binfoAt, List.getElem?_eq_getElem h']
  cases (m.binfo[i]).isB <;> simp

theorem boundaryId_getElem (m : Mesh C F) (hw : WF m) (i : Nat) (h : i < m.faces.length) :
    boundaryId m m.faces[i] = if (m.binfo[i]'(hw.size ▸ h)).isB then .ok (m.binfo[i]'(hw.size ▸ h)).id
      else .throws "Face is not a boundary." := by
  have h' : i < m.binfo.length := hw.size ▸ h
  unfold boundaryId sizeOk
  rw [if_pos hw.size, lookup_getElem m hw i h]
  simp only [Ident.Ident.mk', Ident.Ident.conv, Outcome.bind_ok, Bool.not_true, Bool.false_eq_true,
    if_false, isBoundaryId_getElem m hw i h, binfoAt, List.getElem?_eq_getElem h']
  cases (m.binfo[i]).isB <;> simp

/-- Filtering the faces by a predicate on their descriptor: the sub-list of faces whose descriptor
satisfies the predicate. -/
theorem filter_zip {α β : Type} (l : List α) (d : List β) (hlen : d.length = l.length)
    (q : α → Bool) (r : β → Bool)
    (h : ∀ i (h1 : i < l.length), q l[i] = r (d[i]'(hlen ▸ h1))) :
    l.filter q = ((l.zip d).filter (fun x => r x.2)).map Prod.fst := by
  induction l generalizing d with
  | nil => simp
  | cons a as ih =>
    cases d with
    | nil => simp at hlen
    | cons b bs =>
      have h0 := h 0 (by simp)
      simp only [List.getElem_cons_zero] at h0
      have ih' := ih bs (by simpa using hlen) (by
        intro i h1
        have := h (i + 1) (by simpa using h1)
        simpa using this)
      simp only [List.filter_cons, List.zip_cons_cons, h0]
      split <;> simp [ih']

theorem countP_zip {α β : Type} (l : List α) (d : List β) (hlen : d.length = l.length)
    (r : β → Bool) :
    (((l.zip d).filter (fun x => r x.2)).map Prod.fst).length = d.countP r := by
  induction l generalizing d with
  | nil => cases d with
    | nil => simp
    | cons _ _ => simp at hlen
  | cons a as ih =>
    cases d with
    | nil => simp at hlen
    | cons b bs =>
      have := ih bs (by simpa using hlen)
      simp only [List.zip_cons_cons, List.filter_cons, List.countP_cons]
      split <;> simp_all

end

/-! ### `std::set` insertion -/

theorem mem_setInsert (x y : Nat) (l : List Nat) : y ∈ setInsert x l ↔ y = x ∨ y ∈ l := by
  induction l with
  | nil => simp [setInsert]
  | cons z zs ih =>
    simp only [setInsert]
    split
    · simp
    · split
      · next h => subst h; simp
      · simp [ih]; tauto

theorem setInsert_sorted (x : Nat) (l : List Nat) (h : l.Pairwise (· < ·)) :
    (setInsert x l).Pairwise (· < ·) := by
  induction l with
  | nil => simp [setInsert]
  | cons z zs ih =>
    rw [List.pairwise_cons] at h
    simp only [setInsert]
    split
    · next hx =>
      refine List.pairwise_cons.2 ⟨?_, List.pairwise_cons.2 h⟩
      intro a ha
      rcases List.mem_cons.1 ha with rfl | ha
      · exact hx
      · exact lt_trans hx (h.1 a ha)
    · split
      · exact List.pairwise_cons.2 h
      · refine List.pairwise_cons.2 ⟨?_, ih h.2⟩
        intro a ha
        rcases (mem_setInsert x a zs).1 ha with rfl | ha
        · omega
        · exact h.1 a ha

theorem foldl_setInsert (bs : List BDesc) (s : List Nat) (hs : s.Pairwise (· < ·)) :
    (bs.foldl (fun s d => if d.isB then setInsert d.id s else s) s).Pairwise (· < ·) ∧
    ∀ y, y ∈ bs.foldl (fun s d => if d.isB then setInsert d.id s else s) s ↔
      y ∈ s ∨ ∃ d ∈ bs, d.isB = true ∧ d.id = y := by
  induction bs generalizing s with
  | nil => simp [hs]
  | cons b bs ih =>
    simp only [List.foldl_cons]
    cases hb : b.isB
    · simp only [Bool.false_eq_true, if_false]
      obtain ⟨h1, h2⟩ := ih s hs
      refine ⟨h1, fun y => ?_⟩
      rw [h2]; simp [hb]
    · simp only [if_true]
      obtain ⟨h1, h2⟩ := ih _ (setInsert_sorted b.id s hs)
      refine ⟨h1, fun y => ?_⟩
      rw [h2, mem_setInsert]
      simp only [List.mem_cons, exists_eq_or_imp, hb, true_and]
      constructor
      · rintro ((rfl | h) | h)
        · exact Or.inr (Or.inl rfl)
        · exact Or.inl h
        · exact Or.inr (Or.inr h)
      · rintro (h | rfl | h)
        · exact Or.inl (Or.inr h)
        · exact Or.inl (Or.inl rfl)
        · exact Or.inr h

end Verif.MeshTopo
