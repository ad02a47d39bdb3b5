import Verif.Lemmas.MeshTopo
/-! C14, C15: boundary and internal faces. -/
namespace Verif.MeshTopo
open Verif.Lookup Verif.Spec
variable {C F : Type} [LinearOrder F]

/-- A small well-formed mesh used in the non-vacuity examples: five faces, three of them boundary. -/
def exMesh : Mesh Nat Nat where
  cells := [0, 1]
  faces := [10, 20, 30, 40, 50]
  facesOf := fun c => if c = 0 then [10, 20, 30] else [30, 40, 50]
  binfo := [.mk2 7 true, .mk2 0 false, .mk2 7 true, .mk2 3 true, .default]

theorem exMesh_wf : WF exMesh where
  sorted := by rw [strictSorted_iff_pairwise]; decide
  size := rfl

/-- C14 (classification): on well-formed storage every stored face is classified without error, as
boundary exactly when its own descriptor says so; a face that is not stored makes the query throw. -/
theorem c14_classified (m : Mesh C F) (hw : WF m) :
    (∀ i (h : i < m.faces.length), ∃ d, m.binfo[i]? = some d ∧
      isBoundary m m.faces[i] = .ok d.isB ∧ isBoundaryId m i = .ok d.isB) ∧
    (∀ f, f ∉ m.faces → (isBoundary m f).Throws) := by
  constructor
  · intro i h
    have h' : i < m.binfo.length := hw.size ▸ h
    exact ⟨m.binfo[i], by simp [h'], isBoundary_getElem m hw i h, isBoundaryId_getElem m hw i h⟩
  · intro f hf
    have := ((c03_lookup m.faces hw.sorted f).1).2 hf
    unfold isBoundary sizeOk
    rw [if_pos hw.size]
    cases hl : lookup m.faces f with
    | ok a => rw [hl] at this; exact absurd this (by simp)
    | throws s => simp
    | ub s => rw [hl] at this; exact absurd this (by simp)

/-- C14 (iteration): iterating over the boundary (internal) faces visits exactly the faces whose
descriptor has the flag set (unset), each once, in storage order, without errors. -/
theorem c14_iterators (m : Mesh C F) (hw : WF m) :
    boundaryFaces m = .ok (((m.faces.zip m.binfo).filter (fun x => x.2.isB)).map Prod.fst) ∧
    internalFaces m = .ok (((m.faces.zip m.binfo).filter (fun x => !x.2.isB)).map Prod.fst) := by
  -- a total predicate agreeing with the (possibly throwing) one on stored faces
  let q : F → Bool := fun f => match isBoundary m f with | .ok b => b | _ => false
  have hq : ∀ f ∈ m.faces, isBoundary m f = .ok (q f) := by
    intro f hf
    obtain ⟨i, h, rfl⟩ := List.mem_iff_getElem.1 hf
    simp only [q, isBoundary_getElem m hw i h]
  constructor
  · unfold boundaryFaces sizeOk
    rw [if_pos hw.size, filter_iterate (isBoundary m) q m.faces hq]
    congr 1
    apply filter_zip m.faces m.binfo hw.size q (fun d => d.isB)
    intro i h
    simp only [q, isBoundary_getElem m hw i h]
  · unfold internalFaces sizeOk
    rw [if_pos hw.size, filter_iterate (internalPred m) (fun f => !q f) m.faces
      (fun f hf => by simp [internalPred, hq f hf])]
    congr 1
    apply filter_zip m.faces m.binfo hw.size (fun f => !q f) (fun d => !d.isB)
    intro i h
    simp only [q, isBoundary_getElem m hw i h]

/-- C14 (one boundary): iterating over the faces of boundary `id` visits exactly the boundary faces
carrying that id. -/
theorem c14_iterator_with_id (m : Mesh C F) (hw : WF m) (id : Nat) :
    boundaryFacesId m id =
      .ok (((m.faces.zip m.binfo).filter (fun x => x.2.isB && x.2.id == id)).map Prod.fst) := by
  let q : F → Bool := fun f => match boundaryWithIdPred m id f with | .ok b => b | _ => false
  have key : ∀ i (h : i < m.faces.length), boundaryWithIdPred m id m.faces[i] =
      .ok ((m.binfo[i]'(hw.size ▸ h)).isB && (m.binfo[i]'(hw.size ▸ h)).id == id) := by
    intro i h
    unfold boundaryWithIdPred
    rw [lookup_getElem m hw i h]
    simp only [Ident.Ident.mk', Ident.Ident.conv, Outcome.bind_ok, Bool.not_true, Bool.false_eq_true,
      if_false, isBoundaryId_getElem m hw i h, boundaryIdOfId_getElem m hw i h]
    cases (m.binfo[i]'(hw.size ▸ h)).isB <;> simp
  have hq : ∀ f ∈ m.faces, boundaryWithIdPred m id f = .ok (q f) := by
    intro f hf
    obtain ⟨i, h, rfl⟩ := List.mem_iff_getElem.1 hf
    simp only [q, key i h]
  unfold boundaryFacesId sizeOk
  rw [if_pos hw.size, filter_iterate _ q m.faces hq]
  congr 1
  apply filter_zip m.faces m.binfo hw.size q (fun d => d.isB && d.id == id)
  intro i h
  simp only [q, key i h]

/-- C14 (counts): the boundary and internal face counts are the lengths of the respective
iterations, and add up to the number of faces; no face is visited by both iterations and every face
by one of them. -/
theorem c14_partition (m : Mesh C F) (hw : WF m) :
    ∃ bs is : List F, ∃ nb ni : Nat,
      boundaryFaces m = .ok bs ∧ internalFaces m = .ok is ∧
      boundaryFacesSize m = .ok nb ∧ internalFacesSize m = .ok ni ∧
      bs.length = nb ∧ is.length = ni ∧ nb + ni = m.faces.length ∧
      bs.Sublist m.faces ∧ is.Sublist m.faces ∧
      (∀ f, f ∈ m.faces ↔ (f ∈ bs ∨ f ∈ is)) ∧ (∀ f, ¬ (f ∈ bs ∧ f ∈ is)) := by
  obtain ⟨hb, hi⟩ := c14_iterators m hw
  refine ⟨_, _, _, _, hb, hi, ?_, ?_, countP_zip _ _ hw.size (fun d => d.isB), countP_zip _ _ hw.size (fun d => !d.isB), ?_, ?_, ?_, ?_, ?_⟩
  · simp [boundaryFacesSize, sizeOk, hw.size]
  · simp [internalFacesSize, sizeOk, hw.size]
  · rw [← hw.size]
    have := List.length_eq_countP_add_countP (fun d : BDesc => d.isB) (l := m.binfo)
    simp only [Bool.not_eq_true, Bool.decide_eq_false] at this
    omega
  · have hz : ((m.faces.zip m.binfo).map Prod.fst) = m.faces := by
      rw [List.map_fst_zip]; exact hw.size.ge
    have : (((m.faces.zip m.binfo).filter (fun x => x.2.isB)).map Prod.fst).Sublist
        ((m.faces.zip m.binfo).map Prod.fst) := (List.filter_sublist).map _
    rwa [hz] at this
  · have hz : ((m.faces.zip m.binfo).map Prod.fst) = m.faces := by
      rw [List.map_fst_zip]; exact hw.size.ge
    have : (((m.faces.zip m.binfo).filter (fun x => !x.2.isB)).map Prod.fst).Sublist
        ((m.faces.zip m.binfo).map Prod.fst) := (List.filter_sublist).map _
    rwa [hz] at this
  · intro f
    have hz : ((m.faces.zip m.binfo).map Prod.fst) = m.faces := by
      rw [List.map_fst_zip]; exact hw.size.ge
    simp only [List.mem_map, List.mem_filter, Prod.exists, exists_and_right, exists_eq_right]
    constructor
    · intro hf
      rw [← hz] at hf
      obtain ⟨⟨a, d⟩, had, rfl⟩ := List.mem_map.1 hf
      cases hd : d.isB
      · exact Or.inr ⟨d, had, by simp [hd]⟩
      · exact Or.inl ⟨d, had, hd⟩
    · rintro (⟨d, h, _⟩ | ⟨d, h, _⟩) <;> exact (List.of_mem_zip h).1
  · intro f
    simp only [List.mem_map, List.mem_filter, Prod.exists, exists_and_right, exists_eq_right]
    rintro ⟨⟨d, h1, h2⟩, ⟨e, h3, h4⟩⟩
    obtain ⟨i, hi1, hi2⟩ := List.mem_iff_getElem.1 h1
    obtain ⟨j, hj1, hj2⟩ := List.mem_iff_getElem.1 h3
    rw [List.getElem_zip] at hi2 hj2
    simp only [List.length_zip] at hi1 hj1
    have hf1 : m.faces[i] = f := congrArg Prod.fst hi2
    have hf2 : m.faces[j] = f := congrArg Prod.fst hj2
    have hij : i = j := by
      rcases Nat.lt_trichotomy i j with h | h | h
      · exact absurd (hf1.trans hf2.symm) (ne_of_lt (hw.sorted i j _ _ h))
      · exact h
      · exact absurd (hf2.trans hf1.symm) (ne_of_lt (hw.sorted j i _ _ h))
    subst hij
    have hd : d = e := (congrArg Prod.snd hi2).symm.trans (congrArg Prod.snd hj2)
    subst hd
    simp [h2] at h4

example : WF exMesh ∧ boundaryFaces exMesh = .ok [10, 30, 40] ∧ internalFaces exMesh = .ok [20, 50] ∧
    boundaryFacesId exMesh 7 = .ok [10, 30] := by
  refine ⟨exMesh_wf, ?_, ?_, ?_⟩ <;> decide +kernel

/-- C15 (ids): the id query returns the stored id on boundary faces, and throws on internal faces
and on faces that are not stored. -/
theorem c15_boundary_id (m : Mesh C F) (hw : WF m) :
    (∀ i (h : i < m.faces.length), ∃ d, m.binfo[i]? = some d ∧
      (d.isB = true → boundaryId m m.faces[i] = .ok d.id ∧ boundaryIdOfId m i = .ok d.id) ∧
      (d.isB = false → (boundaryId m m.faces[i]).Throws ∧ (boundaryIdOfId m i).Throws)) ∧
    (∀ f, f ∉ m.faces → (boundaryId m f).Throws) := by
  constructor
  · intro i h
    have h' : i < m.binfo.length := hw.size ▸ h
    refine ⟨m.binfo[i], by simp [h'], ?_, ?_⟩ <;> intro hd <;>
      rw [boundaryId_getElem m hw i h, boundaryIdOfId_getElem m hw i h] <;> simp [hd]
  · intro f hf
    have := ((c03_lookup m.faces hw.sorted f).1).2 hf
    unfold boundaryId sizeOk
    rw [if_pos hw.size]
    cases hl : lookup m.faces f with
    | ok a => rw [hl] at this; exact absurd this (by simp)
    | throws s => simp
    | ub s => rw [hl] at this; exact absurd this (by simp)

/-- C15 (list of ids): strictly increasing, and contains exactly the ids for which at least one
boundary face is found by iterating over that boundary. -/
theorem c15_id_list (m : Mesh C F) (hw : WF m) :
    ∃ ids, boundaryIdList m = .ok ids ∧ StrictSorted ids ∧
      ∀ y, y ∈ ids ↔ ∃ f fs, boundaryFacesId m y = .ok fs ∧ f ∈ fs := by
  obtain ⟨h1, h2⟩ := foldl_setInsert m.binfo [] (by simp)
  refine ⟨m.binfo.foldl (fun s d => if d.isB then setInsert d.id s else s) [], ?_, ?_, ?_⟩
  · simp [boundaryIdList, sizeOk, hw.size]
  · exact (strictSorted_iff_pairwise _).2 h1
  · intro y
    rw [h2]
    simp only [List.not_mem_nil, false_or, c14_iterator_with_id m hw]
    constructor
    · rintro ⟨d, hd, hb, rfl⟩
      obtain ⟨i, hi, rfl⟩ := List.mem_iff_getElem.1 hd
      have hi' : i < m.faces.length := hw.size ▸ hi
      refine ⟨m.faces[i], _, rfl, ?_⟩
      refine List.mem_map.2 ⟨(m.faces[i], m.binfo[i]), ?_, rfl⟩
      rw [List.mem_filter]
      refine ⟨?_, by simp [hb]⟩
      rw [List.mem_iff_getElem]
      exact ⟨i, by simp; omega, by simp⟩
    · rintro ⟨f, fs, hfs, hf⟩
      have hfs' := Outcome.ok.inj hfs
      subst hfs'
      obtain ⟨⟨a, d⟩, hx, rfl⟩ := List.mem_map.1 hf
      rw [List.mem_filter] at hx
      simp only [Bool.and_eq_true, beq_iff_eq] at hx
      exact ⟨d, (List.of_mem_zip hx.1).2, hx.2.1, hx.2.2⟩

example : boundaryIdList exMesh = .ok [3, 7] := by decide

end Verif.MeshTopo
