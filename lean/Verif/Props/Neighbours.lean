import Verif.Lemmas.Neighbours
/-! Property C16: cell neighbours through faces, and interface marking. -/
namespace Verif.Neighbours
open Verif.Lookup Verif.MeshTopo Verif.Spec

variable {C F : Type} [LinearOrder C] [LinearOrder F]

/-- Two triangles 0 and 1 sharing the face 2, sorted faces 0..4; faces 0, 2 flagged as boundary. -/
def exM : Mesh Nat Nat where
  cells := [0, 1]
  faces := [0, 1, 2, 3, 4]
  facesOf := fun c => if c = 0 then [0, 1, 2] else [2, 3, 4]
  binfo := [.mk2 7 true, .default, .mk2 5 true, .default, .default]

/-- C16 (when it throws): with sorted faces, the connectivity is computed without error exactly when
every face of every cell is stored and no face occurs more than twice; otherwise it throws. -/
theorem c16_compute (m : Mesh C F) (hs : StrictSorted m.faces) :
    (((∀ c ∈ m.cells, ∀ f ∈ m.facesOf c, f ∈ m.faces) ∧ ∀ f, occurrences m.cells m.facesOf f ≤ 2) →
      ∃ o, connectivity m = .ok o ∧ o.length = m.faces.length) ∧
    (¬ ((∀ c ∈ m.cells, ∀ f ∈ m.facesOf c, f ∈ m.faces) ∧ ∀ f, occurrences m.cells m.facesOf f ≤ 2) →
      (connectivity m).Throws) := by
  have hrep : List.replicate m.faces.length ((none, none) : Owner) = m.faces.map (own []) := by
    rw [List.eq_replicate_of_mem (l := m.faces.map (own [])) (a := (none, none))]
    · simp
    · intro b hb
      obtain ⟨f, _, rfl⟩ := List.mem_map.1 hb
      simp [own, occ]
  have h := addAll_spec m.faces hs (incOf m.facesOf m.cells 0) [] (by simp [occ])
  simp only [List.nil_append, occ_incOf_length] at h
  have hmem : (∀ x ∈ incOf m.facesOf m.cells 0, x.2 ∈ m.faces) ↔
      (∀ c ∈ m.cells, ∀ f ∈ m.facesOf c, f ∈ m.faces) := by
    have : (∀ x ∈ incOf m.facesOf m.cells 0, x.2 ∈ m.faces) ↔
        ∀ f ∈ (incOf m.facesOf m.cells 0).map Prod.snd, f ∈ m.faces := by
      simp only [List.mem_map]; constructor
      · rintro h f ⟨x, hx, rfl⟩; exact h x hx
      · intro h x hx; exact h _ ⟨x, hx, rfl⟩
    rw [this, incOf_snd]
    simp only [List.mem_flatMap]; constructor
    · intro h c hc f hf; exact h f ⟨c, hc, hf⟩
    · rintro h f ⟨c, hc, hf⟩; exact h c hc f hf
  unfold connectivity
  rw [cellLoop_eq, hrep, ← hmem]
  exact ⟨fun hh => ⟨_, h.1 hh, by simp⟩, h.2⟩

example : (∀ c ∈ exM.cells, ∀ f ∈ exM.facesOf c, f ∈ exM.faces) ∧ (connectivity exM) =
    .ok [(some 0, none), (some 0, none), (some 0, some 1), (some 1, none), (some 1, none)] := by
  decide +kernel
/-- Three cells on one face: rejected. -/
example : (connectivity (⟨[0, 1, 2], [0], fun _ => [0], [.default]⟩ : Mesh Nat Nat)).Throws := by
  decide +kernel

/-- C16 (neighbours): if the connectivity was computed without error (cells and faces sorted, every
cell listing distinct faces) then the neighbour of `c` through its face `f` is the unique other cell
having `f`, and `false` is reported when there is no other cell. -/
theorem c16_neighbour (m : Mesh C F) (hc : StrictSorted m.cells) (hs : StrictSorted m.faces)
    (hn : ∀ c ∈ m.cells, (m.facesOf c).Nodup) (o : List Owner) (ho : connectivity m = .ok o)
    (c : C) (hcm : c ∈ m.cells) (f : F) (hf : f ∈ m.facesOf c) :
    (∃ c', neighbourVia m o c f = .ok (c', true) ∧ OtherCell m.cells m.facesOf c f c' ∧
      ∀ c'', OtherCell m.cells m.facesOf c f c'' → c'' = c') ∨
    ((∃ c0, neighbourVia m o c f = .ok (c0, false)) ∧ ∀ c'', ¬ OtherCell m.cells m.facesOf c f c'') := by
  have hnd := strictSorted_nodup m.cells hc
  have hrep : List.replicate m.faces.length ((none, none) : Owner) = m.faces.map (own []) := by
    rw [List.eq_replicate_of_mem (l := m.faces.map (own [])) (a := (none, none))]
    · simp
    · intro b hb
      obtain ⟨f, _, rfl⟩ := List.mem_map.1 hb
      simp [own, occ]
  have h := addAll_spec m.faces hs (incOf m.facesOf m.cells 0) [] (by simp [occ])
  simp only [List.nil_append] at h
  have ho' : addAll m.faces (incOf m.facesOf m.cells 0) (m.faces.map (own [])) = .ok o := by
    rw [← hrep, ← cellLoop_eq]; exact ho
  have hok : (∀ x ∈ incOf m.facesOf m.cells 0, x.2 ∈ m.faces) ∧
      ∀ f, (occ (incOf m.facesOf m.cells 0) f).length ≤ 2 := by
    by_contra hne
    have := h.2 hne
    rw [ho'] at this
    simp at this
  have h1 := h.1 hok
  rw [ho'] at h1
  have h1 : o = m.faces.map (own (incOf m.facesOf m.cells 0)) := Outcome.ok.inj h1
  obtain ⟨ci, hci, rfl⟩ := List.mem_iff_getElem.1 hcm
  have hocc := occ_incOf_mem m.facesOf m.cells f hn
  have hoccn := occ_incOf_nodup m.facesOf m.cells f hn
  have hlen := hok.2 f
  have hfm : f ∈ m.faces := by
    have : (ci, f) ∈ incOf m.facesOf m.cells 0 := by
      unfold incOf
      rw [List.mem_flatMap]
      exact ⟨(m.cells[ci], ci), by simp [List.mem_zipIdx_iff_getElem?, hci], by simpa using hf⟩
    exact hok.1 _ this
  obtain ⟨fi, hfi, rfl⟩ := List.mem_iff_getElem.1 hfm
  have hin : ci ∈ occ (incOf m.facesOf m.cells 0) m.faces[fi] := (hocc ci).2 ⟨hci, hf⟩
  have hval : ∀ p, own (incOf m.facesOf m.cells 0) m.faces[fi] = p → neighbourVia m o m.cells[ci] m.faces[fi] =
      (let p : Owner := if p.1.isSome && p.1 != some ci then (p.2, p.1) else p
      if p.1 = some ci then
        match p.2 with
        | none => match m.cells[0]? with
          | none => .ub "cells_begin of an empty mesh"
          | some c0 => .ok (c0, false)
        | some j => match m.cells[j]? with
          | none => .ub "past the last cell"
          | some c' => .ok (c', true)
      else .ub "assert: fo[0].value() == cl_ofs") := by
    intro p hp
    unfold neighbourVia
    rw [if_neg (by simp [h1])]
    simp only [(c04_offset_stored_partial m.cells hc ci hci).1,
      (c04_offset_stored_partial m.faces hs fi hfi).1, Outcome.bind_ok]
    rw [h1, List.getElem?_map, List.getElem?_eq_getElem hfi, Option.map_some, hp]
    rfl
  have hother : ∀ c'', OtherCell m.cells m.facesOf m.cells[ci] m.faces[fi] c'' ↔
      ∃ j, ∃ h : j < m.cells.length, j ∈ occ (incOf m.facesOf m.cells 0) m.faces[fi] ∧ j ≠ ci ∧ c'' = m.cells[j] := by
    intro c''
    unfold OtherCell
    constructor
    · rintro ⟨hm, hne, hff⟩
      obtain ⟨j, hj, rfl⟩ := List.mem_iff_getElem.1 hm
      exact ⟨j, hj, (hocc j).2 ⟨hj, hff⟩, fun h => hne (by subst h; rfl), rfl⟩
    · rintro ⟨j, hj, hjm, hne, rfl⟩
      obtain ⟨_, hff⟩ := (hocc j).1 hjm
      exact ⟨List.getElem_mem hj, fun h => hne (hnd.getElem_inj_iff.1 h), hff⟩
  have h0 : 0 < m.cells.length := by omega
  match hoc : occ (incOf m.facesOf m.cells 0) m.faces[fi] with
  | [] => rw [hoc] at hin; simp at hin
  | [a] =>
    rw [hoc] at hin
    simp only [List.mem_singleton] at hin
    subst hin
    right
    constructor
    · refine ⟨m.cells[0], ?_⟩
      rw [hval (some ci, none) (by simp [own, hoc])]
      simp [h0]
    · intro c''
      rw [hother]
      rintro ⟨j, _, hj, hne, _⟩
      rw [hoc] at hj
      simp at hj
      exact hne hj
  | [a, b] =>
    left
    rw [hoc] at hoccn
    have hab : a ≠ b := by simpa using hoccn
    have ha : ∃ h : a < m.cells.length, m.faces[fi] ∈ m.facesOf m.cells[a] := (hocc a).1 (by simp [hoc])
    have hb : ∃ h : b < m.cells.length, m.faces[fi] ∈ m.facesOf m.cells[b] := (hocc b).1 (by simp [hoc])
    rw [hoc] at hin
    simp only [List.mem_cons, List.not_mem_nil, or_false] at hin
    have key : ∃ j, ∃ hj : j < m.cells.length, neighbourVia m o m.cells[ci] m.faces[fi] = .ok (m.cells[j], true) ∧
        j ∈ ([a, b] : List Nat) ∧ j ≠ ci ∧ ∀ k ∈ ([a, b] : List Nat), k ≠ ci → k = j := by
      rcases hin with rfl | rfl
      · refine ⟨b, hb.1, ?_, by simp, hab.symm, ?_⟩
        · rw [hval (some ci, some b) (by simp [own, hoc])]
          simp [hb.1]
        · simp
      · refine ⟨a, ha.1, ?_, by simp, hab, ?_⟩
        · rw [hval (some a, some ci) (by simp [own, hoc])]
          simp [hab, ha.1]
        · intro k hk; simp at hk; rcases hk with rfl | rfl <;> simp
    obtain ⟨j, hj, hnv, hjm, hne, huniq⟩ := key
    refine ⟨m.cells[j], hnv, (hother _).2 ⟨j, hj, by rw [hoc]; exact hjm, hne, rfl⟩, ?_⟩
    intro c'' hc''
    obtain ⟨k, hk, hkm, hkne, rfl⟩ := (hother _).1 hc''
    rw [hoc] at hkm
    have := huniq k hkm hkne
    subst this
    rfl
  | a :: b :: d :: t => rw [hoc] at hlen; simp only [List.length_cons] at hlen; omega

example : neighbourVia exM [(some 0, none), (some 0, none), (some 0, some 1), (some 1, none), (some 1, none)]
    1 2 = .ok (0, true) ∧ neighbourVia exM
    [(some 0, none), (some 0, none), (some 0, some 1), (some 1, none), (some 1, none)] 1 3 = .ok (0, false) := by
  decide +kernel

/-- C16 (symmetry): the neighbour relation is symmetric. -/
theorem c16_symmetric (m : Mesh C F) (hc : StrictSorted m.cells) (hs : StrictSorted m.faces)
    (hn : ∀ c ∈ m.cells, (m.facesOf c).Nodup) (o : List Owner) (ho : connectivity m = .ok o)
    (c c' : C) (hcm : c ∈ m.cells) (f : F) (hf : f ∈ m.facesOf c)
    (h : neighbourVia m o c f = .ok (c', true)) :
    f ∈ m.facesOf c' ∧ neighbourVia m o c' f = .ok (c, true) := by
  rcases c16_neighbour m hc hs hn o ho c hcm f hf with ⟨d, hd, ⟨hm, hne, hff⟩, _⟩ | ⟨⟨c0, hc0⟩, _⟩
  · rw [h] at hd
    have : c' = d := by simpa using hd
    subst this
    refine ⟨hff, ?_⟩
    rcases c16_neighbour m hc hs hn o ho c' hm f hff with ⟨e, he, _, hu⟩ | ⟨_, hno⟩
    · rw [he, hu c ⟨hcm, hne.symm, hf⟩]
    · exact absurd ⟨hcm, hne.symm, hf⟩ (hno c)
  · rw [h] at hc0; simp at hc0

/-- C16 (distinctness is needed): a cell that lists one face twice becomes its own neighbour. -/
theorem c16_duplicate_face :
    ∃ m : Mesh Nat Nat, StrictSorted m.cells ∧ StrictSorted m.faces ∧ ∃ o, connectivity m = .ok o ∧
      neighbourVia m o 0 0 = .ok (0, true) := by
  refine ⟨⟨[0], [0], fun _ => [0, 0], [.default]⟩, ?_, ?_, [(some 0, some 0)], ?_, ?_⟩
  · rw [strictSorted_iff_pairwise]; decide
  · rw [strictSorted_iff_pairwise]; decide
  · decide +kernel
  · decide +kernel

/-- C16 (interfaces): on a well-formed mesh whose cells only list stored faces, marking succeeds
exactly when no face occurs more than twice (the failed assert is undefined behaviour otherwise); it
marks exactly the boundary-flagged faces that occur twice and leaves every other field alone. -/
theorem c16_mark_internal (m : Mesh C F) (hw : WF m)
    (hm : ∀ c ∈ m.cells, ∀ f ∈ m.facesOf c, f ∈ m.faces) :
    ((∀ f, occurrences m.cells m.facesOf f ≤ 2) → ∃ b, markInternal m = .ok b ∧ b.length = m.binfo.length ∧
      ∀ i (h : i < m.faces.length) (hb : i < b.length) (hb' : i < m.binfo.length),
        (b[i]).isInt = ((m.binfo[i]).isInt || ((m.binfo[i]).isB && occurrences m.cells m.facesOf m.faces[i] == 2)) ∧
        (b[i]).id = (m.binfo[i]).id ∧ (b[i]).tag = (m.binfo[i]).tag ∧ (b[i]).isB = (m.binfo[i]).isB) ∧
    ((¬ ∀ f, occurrences m.cells m.facesOf f ≤ 2) → (markInternal m).IsUB) := by
  have hz : List.replicate m.faces.length 0 = m.faces.map (fun f => ([] : List F).count f) := by
    simp
  have hcount : countCells m m.cells (List.replicate m.faces.length 0) =
      .ok (m.faces.map (fun f => occurrences m.cells m.facesOf f)) := by
    rw [hz, countCells_spec m hw.sorted m.cells [] hm]
    simp [occurrences]
  have hlen : (m.faces.map (fun f => occurrences m.cells m.facesOf f)).length = m.faces.length := by simp
  unfold markInternal
  rw [hcount]
  simp only [Outcome.bind_ok]
  have hr : List.range m.faces.length = List.range' (m.faces.length - m.faces.length) m.faces.length := by
    rw [Nat.sub_self, List.range_eq_range']
  constructor
  · intro h2
    have := markLoop_spec (m.faces.map (fun f => occurrences m.cells m.facesOf f))
      (by intro k hk; obtain ⟨f, _, rfl⟩ := List.mem_map.1 hk; exact h2 f) m.faces.length m.binfo
      (by rw [hlen, hw.size]) (by simp)
    rw [hlen] at this
    rw [hr]
    refine ⟨_, this, ?_, ?_⟩
    · simp [hw.size]
    · intro i h hb hb'
      simp only [Nat.sub_self, List.take_zero, List.drop_zero, List.nil_append, List.getElem_zipWith,
        List.getElem_map, mark]
      by_cases hc : ((m.binfo[i]).isB && occurrences m.cells m.facesOf m.faces[i] == 2) = true
      · rw [if_pos hc]
        simp [BDesc.setInt, hc]
      · rw [if_neg hc]
        simp only [Bool.not_eq_true] at hc
        simp [hc]
  · intro h2
    push Not at h2
    obtain ⟨f, hf⟩ := h2
    have hfm : f ∈ m.faces := by
      have : 0 < (m.cells.flatMap m.facesOf).count f := by unfold occurrences at hf; omega
      rw [List.count_pos_iff, List.mem_flatMap] at this
      obtain ⟨c, hc, hfc⟩ := this
      exact hm c hc f hfc
    have := markLoop_ub (m.faces.map (fun f => occurrences m.cells m.facesOf f))
      ⟨_, List.mem_map.2 ⟨f, hfm, rfl⟩, hf⟩ m.faces.length m.binfo (by rw [hlen, hw.size]) (by simp)
      (by intro i h _; rw [hlen]; omega)
    rw [hlen] at this
    rw [hr]
    exact this

example : markInternal exM = .ok [.mk2 7 true, .default, (BDesc.mk2 5 true).setInt true, .default, .default] := by
  decide +kernel

end Verif.Neighbours
