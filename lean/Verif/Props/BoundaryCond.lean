import Verif.Lemmas.BoundaryCond
/-! Properties C17-C20, C57, C58: boundary condition bookkeeping. -/
namespace Verif.BoundaryCond
open Verif.Lookup Verif.MeshTopo Verif.Spec

variable {C F : Type} [LinearOrder F] {K Fn : Type}

/-- Three faces: 0 on boundary 7, 1 internal, 2 on boundary 5. -/
def exB : Mesh Nat Nat := ⟨[0], [0, 1, 2], fun _ => [0, 1, 2], [.mk2 7 true, .default, .mk2 5 true]⟩

theorem exB_wf : WF exB := ⟨by rw [strictSorted_iff_pairwise]; decide, rfl⟩

/-- C17: after any history of calls, on any well-formed mesh, a face carries a condition of a kind
exactly when a call of that kind covered it, and the last such call determines its type, its function
and (except for contact) the current factor. Faces never covered carry the neutral type and asking for
their function throws. -/
theorem c17_last_wins (m : Mesh C F) (hw : WF m) (one : K) (h : List (Call K Fn)) :
    ∃ s, run m (init m one) h = .ok s ∧ ∀ k i, i < m.faces.length →
      isFace s k i = .ok (h.any (concerns m k i)) ∧
      (∀ c, lastCall m k i h = some c → typeOf s k i = .ok (callType c) ∧
        (∀ f, callFn c = some f → funcOf s k i =
          .ok (if k = .contact then none else some (lastFactor one h), f)) ∧
        (callFn c = none → (funcOf s k i).Throws)) ∧
      (lastCall m k i h = none → typeOf s k i = .ok (initEntry k).btype ∧ (funcOf s k i).Throws) := by
  obtain ⟨s, h1, hi⟩ := run_inv m hw one h [] (init m one) (init_inv m one)
  rw [List.nil_append] at hi
  refine ⟨s, h1, ?_⟩
  intro k i hl
  obtain ⟨e, he, hok⟩ := entry_of m one h s hi k i hl
  have hany : h.any (concerns m k i) = (lastCall m k i h).isSome := by
    unfold lastCall
    rw [Bool.eq_iff_iff, List.find?_isSome]
    simp
  have hinit : (initEntry k).flag = false := by cases k <;> rfl
  refine ⟨?_, ?_, ?_⟩
  · unfold isFace
    rw [he, hany]
    simp only [Outcome.bind_ok]
    cases hc : lastCall m k i h with
    | none => rw [hc] at hok; simp only [EntryOK] at hok; rw [hok]; simp [hinit]
    | some c => rw [hc] at hok; simp only [EntryOK] at hok; rw [hok.1]; rfl
  · intro c hc
    rw [hc] at hok
    simp only [EntryOK] at hok
    obtain ⟨h2, h3, h4, h5⟩ := hok
    refine ⟨by simp [typeOf, he, h3], ?_, ?_⟩
    · intro f hf
      rw [hf] at h5
      obtain ⟨j, h6, h7⟩ := h5
      unfold funcOf isFace
      rw [he]
      simp only [Outcome.bind_ok, h2, Bool.not_true, Bool.false_eq_true, if_false, h6,
        Int.toNat_natCast, h7, hi.factor]
      rw [if_neg (by omega)]
    · intro hf
      rw [hf] at h5
      unfold funcOf isFace
      rw [he]
      simp only [Outcome.bind_ok, h2, Bool.not_true, Bool.false_eq_true, if_false, h5]
      rw [if_pos (by omega)]
      simp
  · intro hc
    rw [hc] at hok
    simp only [EntryOK] at hok
    refine ⟨by simp [typeOf, he, hok], ?_⟩
    unfold funcOf isFace
    rw [he]
    simp [hok, hinit]

/-- C17 (overloads): the overloads taking a face agree with those taking its number. -/
theorem c17_face_overloads (m : Mesh C F) (hw : WF m) (s : State K Fn) (k : Kind) (i : Nat)
    (hl : i < m.faces.length) :
    isFaceF m s k m.faces[i] = isFace s k i ∧ typeOfF m s k m.faces[i] = typeOf s k i ∧
    (∀ f, f ∉ m.faces → (isFaceF m s k f).Throws) := by
  refine ⟨?_, ?_, ?_⟩
  · unfold isFaceF viaFace
    rw [lookup_getElem m hw i hl]
    simp [Ident.Ident.mk', Ident.Ident.conv]
  · unfold typeOfF viaFace
    rw [lookup_getElem m hw i hl]
    simp [Ident.Ident.mk', Ident.Ident.conv]
  · intro f hf
    have := ((c03_lookup m.faces hw.sorted f).1).2 hf
    unfold isFaceF viaFace
    cases hlk : lookup m.faces f with
    | ok a => rw [hlk] at this; simp at this
    | throws s => simp
    | ub s => rw [hlk] at this; simp at this

example : ((run exB (init exB 1) [.add .dirichlet DX 7 "a", .everywhere "b", .add .dirichlet DY 7 "c", .scale 3]).bind
    fun s => (funcOf s .dirichlet 0).bind fun a => (funcOf s .dirichlet 2).bind fun b => .ok [a, b]) =
    .ok [(some 3, "c"), (some 3, "b")] := by decide +kernel

/-- C18: if no face is covered by two calls of one kind, the reported number of faces of that kind is
the number of faces the query says are of that kind. -/
theorem c18_count_partial (m : Mesh C F) (hw : WF m) (one : K) (h : List (Call K Fn)) (k : Kind)
    (hd : h.Pairwise (fun c c' => ∀ i, ¬ (concerns m k i c = true ∧ concerns m k i c' = true))) :
    ∃ s, run m (init m one) h = .ok s ∧
      nbFaces s k = (List.range m.faces.length).countP (fun i => decide (isFace s k i = .ok true)) := by
  obtain ⟨s, h1, hi⟩ := run_inv m hw one h [] (init m one) (init_inv m one)
  obtain ⟨s', h1', h2⟩ := c17_last_wins m hw one h
  have : s = s' := by rw [h1] at h1'; simpa using h1'
  subst this
  rw [List.nil_append] at hi
  refine ⟨s, h1, ?_⟩
  unfold nbFaces
  rw [hi.count, coverCount_disjoint m k h hd]
  apply List.countP_congr
  intro i hi'
  rw [(h2 k i (List.mem_range.1 hi')).1]
  simp

/-- C18 (what is reported): the counter is the number of (call, covered face) pairs, so it never
underestimates. -/
theorem c18_count_is_coverage (m : Mesh C F) (hw : WF m) (one : K) (h : List (Call K Fn)) (k : Kind) :
    ∃ s, run m (init m one) h = .ok s ∧
      nbFaces s k = (h.map (fun c => (List.range m.faces.length).countP (fun i => concerns m k i c))).sum := by
  obtain ⟨s, h1, hi⟩ := run_inv m hw one h [] (init m one) (init_inv m one)
  rw [List.nil_append] at hi
  refine ⟨s, h1, ?_⟩
  unfold nbFaces
  rw [hi.count, coverCount]
  congr 1
  apply List.map_congr_left
  intro c _
  by_cases hk : callKind c = some k
  · simp only [hk, if_true, covered, concerns, decide_true, Bool.true_and, List.countP_eq_length_filter]
  · simp only [hk, if_false, concerns, decide_false, Bool.false_and]
    simp

example : ((run exB (init exB 1) [.add .dirichlet DIRICHLET 7 "a", .add .dirichlet DIRICHLET 5 "b"]).bind
    fun s => .ok (nbFaces s .dirichlet)) = .ok 2 := by decide +kernel

/-- C18 fails: replacing the condition of a boundary counts its faces twice. -/
theorem c18_count_violation :
    ∃ (m : Mesh Nat Nat) (h : List (Call Nat String)), WF m ∧ ∃ s, run m (init m 1) h = .ok s ∧
      nbFaces s .dirichlet = 2 ∧
      (List.range m.faces.length).countP (fun i => decide (isFace s .dirichlet i = .ok true)) = 1 := by
  have hw : WF exB := exB_wf
  let h : List (Call Nat String) := [.add .dirichlet DIRICHLET 7 "a", .add .dirichlet DIRICHLET 7 "b"]
  obtain ⟨s, h1, hc⟩ := c17_last_wins exB hw 1 h
  obtain ⟨s', h1', hn⟩ := c18_count_is_coverage exB hw 1 h .dirichlet
  have : s = s' := by rw [h1] at h1'; simpa using h1'
  subst this
  refine ⟨exB, h, hw, s, h1, ?_, ?_⟩
  · rw [hn]; decide
  · rw [List.countP_congr (q := fun i => h.any (concerns exB .dirichlet i))]
    · decide
    · intro i hi
      rw [(hc .dirichlet i (List.mem_range.1 hi)).1]
      simp

/-- C19: the number-based accessors of all four kinds and the face-based accessors of the Dirichlet,
Neumann and Robin kinds return the id under which the governing condition was added. -/
theorem c19_ids_partial (m : Mesh C F) (hw : WF m) (one : K) (h : List (Call K Fn)) :
    ∃ s, run m (init m one) h = .ok s ∧ ∀ k i (hl : i < m.faces.length) c, lastCall m k i h = some c →
      idOf s k i = .ok (callId c) ∧ (k ≠ .contact → idOfF m s k m.faces[i] = .ok (callId c)) := by
  obtain ⟨s, h1, hi⟩ := run_inv m hw one h [] (init m one) (init_inv m one)
  rw [List.nil_append] at hi
  refine ⟨s, h1, ?_⟩
  intro k i hl c hc
  obtain ⟨e, he, hok⟩ := entry_of m one h s hi k i hl
  rw [hc] at hok
  simp only [EntryOK] at hok
  have hid : idOf s k i = .ok (callId c) := by simp [idOf, he, hok.2.2.1]
  refine ⟨hid, ?_⟩
  intro hk
  have hv : viaFace m (idOf s k) m.faces[i] = .ok (callId c) := by
    unfold viaFace
    rw [lookup_getElem m hw i hl]
    simp only [Ident.Ident.mk', Ident.Ident.conv, Outcome.bind_ok, Bool.not_true, Bool.false_eq_true,
      if_false]
    exact hid
  cases k with
  | contact => exact absurd rfl hk
  | dirichlet => exact hv
  | neumann => exact hv
  | robin => exact hv

example : ((run exB (init exB 1) [.add .robin ROBIN 7 "a"]).bind fun s => idOfF exB s .robin 0) = .ok 7 := by
  decide +kernel

/-- C19 fails for contact: `contact_boundary_id(face)` returns the Robin id. -/
theorem c19_contact_violation :
    ∃ (m : Mesh Nat Nat) (h : List (Call Nat String)), WF m ∧ ∃ s, run m (init m 1) h = .ok s ∧
      idOf s .contact 0 = .ok 7 ∧ idOfF m s .contact 0 = .ok 0 := by
  obtain ⟨s, h1, hi⟩ := run_inv exB exB_wf 1 [(.addContact SIGNORINI 7 : Call Nat String)] [] _ (init_inv exB 1)
  rw [List.nil_append] at hi
  obtain ⟨e, he, hok⟩ := entry_of exB 1 _ s hi .contact 0 (by decide)
  obtain ⟨e', he', hok'⟩ := entry_of exB 1 _ s hi .robin 0 (by decide)
  have hc : lastCall exB .contact 0 [(.addContact SIGNORINI 7 : Call Nat String)] = some (.addContact SIGNORINI 7) := rfl
  have hc' : lastCall exB .robin 0 [(.addContact SIGNORINI 7 : Call Nat String)] = none := rfl
  rw [hc] at hok
  rw [hc'] at hok'
  simp only [EntryOK] at hok hok'
  refine ⟨exB, _, exB_wf, s, h1, ?_, ?_⟩
  · simp [idOf, he, hok.2.2.1, callId]
  · have hl := lookup_getElem exB exB_wf 0 (by decide)
    have hl : lookup exB.faces 0 = .ok (Ident.Ident.mk' 0) := hl
    simp only [idOfF, viaFace, hl, Ident.Ident.mk', Ident.Ident.conv, Outcome.bind_ok, Bool.not_true,
      Bool.false_eq_true, if_false, idOf, he', hok']
    rfl

/-- C20: for vector problems in dimension 2 and 3 the number of imposed unknowns is the number of
constrained components times the unknowns per component (when the unknowns are a multiple of the
dimension), and types with no meaning in that dimension, or that are not Dirichlet types, throw. -/
theorem c20_vector (t q dim : Nat) (hd : dim = 2 ∨ dim = 3) :
    (∀ cs, constrained t dim = some cs → imposedVector t (q * dim) dim = .ok (cs.length * q)) ∧
    (constrained t dim = none → (imposedVector t (q * dim) dim).Throws) := by
  have hq : q * dim / dim = q := Nat.mul_div_cancel q (by omega)
  match t with
  | 0 | 1 | 2 | 3 | 4 | 5 | 6 | 7 | 8 =>
    rcases hd with rfl | rfl <;>
      simp [constrained, imposedVector, hq, DIRICHLET, CLAMPED, DX, DY, DZ, DXDY, DXDZ, DYDZ, NOTHING,
        Nat.mul_comm]
  | t + 9 =>
    rcases hd with rfl | rfl <;>
      simp [constrained, imposedVector, DIRICHLET, CLAMPED, DX, DY, DZ, DXDY, DXDZ, DYDZ, NOTHING]

/-- C20 (scalar problems and the query): all or nothing; a face that is not Dirichlet imposes nothing. -/
theorem c20_query (scalar : Bool) (s : State K Fn) (i n dim t : Nat) (hb : isFace s .dirichlet i = .ok false ∨
      (isFace s .dirichlet i = .ok true ∧ typeOf s .dirichlet i = .ok t)) :
    (isFace s .dirichlet i = .ok false → imposedDofs scalar s i n dim = .ok 0) ∧
    (isFace s .dirichlet i = .ok true → imposedDofs scalar s i n dim =
      if scalar then imposedScalar t n else imposedVector t n dim) ∧
    imposedScalar DIRICHLET n = .ok n ∧ imposedScalar NOTHING n = .ok 0 ∧
    (∀ t, t ≠ DIRICHLET → t ≠ NOTHING → (imposedScalar t n).Throws) := by
  refine ⟨?_, ?_, rfl, rfl, ?_⟩
  · intro h; simp [imposedDofs, h]
  · intro h
    rcases hb with hb | ⟨_, ht⟩
    · rw [h] at hb; simp at hb
    · simp [imposedDofs, h, ht]
  · intro t h1 h2
    simp [imposedScalar, h1, h2]

example : imposedVector DXDZ 9 3 = .ok 6 ∧ (imposedVector DXDZ 6 2).Throws ∧ (imposedVector ROBIN 6 2).Throws := by
  decide

/-- C57: if no face is covered by calls of two kinds then every face carries at most one kind. -/
theorem c57_exclusive_partial (m : Mesh C F) (hw : WF m) (one : K) (h : List (Call K Fn))
    (hd : ∀ i, ∀ c ∈ h, ∀ c' ∈ h, callCovers m c i = true → callCovers m c' i = true → callKind c = callKind c') :
    ∃ s, run m (init m one) h = .ok s ∧ ∀ k k' i, i < m.faces.length →
      isFace s k i = .ok true → isFace s k' i = .ok true → k = k' := by
  obtain ⟨s, h1, h2⟩ := c17_last_wins m hw one h
  refine ⟨s, h1, ?_⟩
  intro k k' i hl ha hb
  rw [(h2 k i hl).1] at ha
  rw [(h2 k' i hl).1] at hb
  have ha : h.any (concerns m k i) = true := by simpa using ha
  have hb : h.any (concerns m k' i) = true := by simpa using hb
  obtain ⟨c, hc, hcc⟩ := List.any_eq_true.1 ha
  obtain ⟨c', hc', hcc'⟩ := List.any_eq_true.1 hb
  simp only [concerns, Bool.and_eq_true, decide_eq_true_eq] at hcc hcc'
  have := hd i c hc c' hc' hcc.2 hcc'.2
  rw [hcc.1, hcc'.1] at this
  simpa using this

example : ∀ i ∈ [0, 1, 2], ∀ c ∈ [(.add .neumann NEUMANN 5 "n" : Call Nat String), .add .dirichlet DIRICHLET 7 "d"],
    ∀ c' ∈ [(.add .neumann NEUMANN 5 "n" : Call Nat String), .add .dirichlet DIRICHLET 7 "d"],
    callCovers exB c i = true → callCovers exB c' i = true → callKind c = callKind c' := by
  decide

/-- C57 fails: a face declared Dirichlet and later Neumann carries both conditions. -/
theorem c57_exclusive_violation :
    ∃ (m : Mesh Nat Nat) (h : List (Call Nat String)), WF m ∧ ∃ s, run m (init m 1) h = .ok s ∧
      isFace s .dirichlet 0 = .ok true ∧ isFace s .neumann 0 = .ok true := by
  obtain ⟨s, h1, h2⟩ := c17_last_wins exB exB_wf 1
    [(.add .dirichlet DIRICHLET 7 "d" : Call Nat String), .add .neumann NEUMANN 7 "n"]
  refine ⟨exB, _, exB_wf, s, h1, ?_, ?_⟩
  · rw [(h2 .dirichlet 0 (by decide)).1]; rfl
  · rw [(h2 .neumann 0 (by decide)).1]; rfl

/-- C58: on a cell whose faces (numbers `is`) are stored, the faces with and without contact split the
faces of the cell, and, if no call gave the type NO_CONTACT, they are the faces with and without a
contact condition: the number with contact equals the reported number of contact faces. -/
theorem c58_contact_lists_partial (m : Mesh C F) (hw : WF m) (one : K) (h : List (Call K Fn)) (c : C) (is : List Nat)
    (hfs : (m.facesOf c).map some = is.map (fun i => m.faces[i]?)) (hlt : ∀ i ∈ is, i < m.faces.length)
    (hno : ∀ x ∈ h, callKind x = some .contact → callType x ≠ NO_CONTACT) :
    ∃ s, run m (init m one) h = .ok s ∧ ∃ w wo n, facesWithContact m s c = .ok w ∧
      facesWithoutContact m s c = .ok wo ∧ howmanyContact s is = .ok n ∧
      w.length = n ∧ wo.length + n = (m.facesOf c).length ∧
      w.map some = (is.filter (fun i => h.any (concerns m .contact i))).map (fun i => m.faces[i]?) ∧
      wo.map some = (is.filter (fun i => !h.any (concerns m .contact i))).map (fun i => m.faces[i]?) := by
  obtain ⟨s, h1, h2⟩ := c17_last_wins m hw one h
  refine ⟨s, h1, ?_⟩
  have hany : ∀ i, h.any (concerns m .contact i) = (lastCall m .contact i h).isSome := by
    intro i
    unfold lastCall
    rw [Bool.eq_iff_iff, List.find?_isSome]
    simp
  let ty : Nat → Nat := fun i => match lastCall m .contact i h with | none => NO_CONTACT | some c => callType c
  have hty : ∀ i ∈ is, typeOf s .contact i = .ok (ty i) := by
    intro i hi
    obtain ⟨_, ha, hb⟩ := h2 .contact i (hlt i hi)
    cases hl : lastCall m .contact i h with
    | none => rw [(hb hl).1]; simp [ty, hl, initEntry]
    | some c => rw [(ha c hl).1]; simp [ty, hl]
  have htyb : ∀ i, (ty i != NO_CONTACT) = h.any (concerns m .contact i) := by
    intro i
    rw [hany]
    cases hl : lastCall m .contact i h with
    | none => simp [ty, hl]
    | some c =>
      have hmem := List.mem_of_find?_eq_some hl
      have hcon := List.find?_some hl
      simp only [concerns, Bool.and_eq_true, decide_eq_true_eq] at hcon
      have := hno c (List.mem_reverse.1 hmem) hcon.1
      simp [ty, hl, this]
  obtain ⟨w, hw1, hw2⟩ := facesByType_spec m hw s (fun t => t != NO_CONTACT) ty is _ hfs hty
  obtain ⟨wo, hwo1, hwo2⟩ := facesByType_spec m hw s (fun t => t == NO_CONTACT) ty is _ hfs hty
  have hn := howmanyContact_spec s (fun i => h.any (concerns m .contact i)) is
    (fun i hi => (h2 .contact i (hlt i hi)).1)
  have hneg : ∀ i, (ty i == NO_CONTACT) = !h.any (concerns m .contact i) := by
    intro i; rw [← htyb]; simp [bne]
  simp only [htyb] at hw2
  simp only [hneg] at hwo2
  have hl1 : w.length = is.countP (fun i => h.any (concerns m .contact i)) := by
    have := congrArg List.length hw2
    simpa [List.countP_eq_length_filter] using this
  have hl2 : wo.length = is.countP (fun i => !h.any (concerns m .contact i)) := by
    have := congrArg List.length hwo2
    simpa [List.countP_eq_length_filter] using this
  have hl3 : (m.facesOf c).length = is.length := by
    have := congrArg List.length hfs
    simpa using this
  refine ⟨w, wo, _, hw1, hwo1, hn, hl1, ?_, hw2, hwo2⟩
  have := List.length_eq_countP_add_countP (fun i => h.any (concerns m .contact i)) (l := is)
  rw [hl2, hl3, this]
  simp only [Bool.not_eq_true, Bool.decide_eq_false]
  omega

example : ((run exB (init exB 1) [(.addContact SIGNORINI 7 : Call Nat String)]).bind fun s =>
    (facesWithContact exB s 0).bind fun w => (facesWithoutContact exB s 0).bind fun wo => .ok [w, wo]) =
    .ok [[0], [1, 2]] := by decide +kernel

/-- C58: the faces with unknowns of a cell are its faces, in order, except those whose last contact call is of
type SIGNORINI_CELL. -/
theorem c58_unknown_faces (m : Mesh C F) (hw : WF m) (one : K) (h : List (Call K Fn)) (c : C) (is : List Nat)
    (hfs : (m.facesOf c).map some = is.map (fun i => m.faces[i]?)) (hlt : ∀ i ∈ is, i < m.faces.length) :
    ∃ s, run m (init m one) h = .ok s ∧ ∃ w, facesWithUnknowns m s c = .ok w ∧
      w.map some = (is.filter (fun i => !((lastCall m .contact i h).map callType == some SIGNORINI_CELL))).map
        (fun i => m.faces[i]?) := by
  obtain ⟨s, h1, h2⟩ := c17_last_wins m hw one h
  refine ⟨s, h1, ?_⟩
  let ty : Nat → Nat := fun i => match lastCall m .contact i h with | none => NO_CONTACT | some c => callType c
  have hty : ∀ i ∈ is, typeOf s .contact i = .ok (ty i) := by
    intro i hi
    obtain ⟨_, ha, hb⟩ := h2 .contact i (hlt i hi)
    cases hl : lastCall m .contact i h with
    | none => rw [(hb hl).1]; simp [ty, hl, initEntry]
    | some c => rw [(ha c hl).1]; simp [ty, hl]
  obtain ⟨w, hw1, hw2⟩ := facesByType_spec m hw s (fun t => t != SIGNORINI_CELL) ty is _ hfs hty
  refine ⟨w, hw1, ?_⟩
  rw [hw2]
  congr 2
  funext i
  cases hl : lastCall m .contact i h with
  | none => simp [ty, hl, NO_CONTACT, SIGNORINI_CELL]
  | some c => simp [ty, hl, bne]

example : ((run exB (init exB 1) [(.addContact SIGNORINI_CELL 7 : Call Nat String)]).bind fun s =>
    facesWithUnknowns exB s 0) = .ok [1, 2] := by decide +kernel

/-- C58 fails when a contact condition of type NO_CONTACT is added: the face is counted as a contact
face but listed as a face without contact. -/
theorem c58_contact_lists_violation :
    ∃ (m : Mesh Nat Nat) (h : List (Call Nat String)), WF m ∧ ∃ s, run m (init m 1) h = .ok s ∧
      howmanyContact s [0, 1, 2] = .ok 1 ∧ facesWithContact m s 0 = .ok [] := by
  obtain ⟨s, h1, h2⟩ := c17_last_wins exB exB_wf 1 [(.addContact NO_CONTACT 7 : Call Nat String)]
  refine ⟨exB, _, exB_wf, s, h1, ?_, ?_⟩
  · rw [howmanyContact_spec s (fun i => i == 0) [0, 1, 2]]
    · decide
    · intro i hi
      have : i < exB.faces.length := by
        simp only [List.mem_cons, List.not_mem_nil, or_false] at hi
        simp only [exB, List.length_cons, List.length_nil]; omega
      rw [(h2 .contact i this).1]
      simp only [List.mem_cons, List.not_mem_nil, or_false] at hi
      rcases hi with rfl | rfl | rfl <;> rfl
  · obtain ⟨r, hr, hr'⟩ := facesByType_spec exB exB_wf s (fun t => t != NO_CONTACT) (fun _ => NO_CONTACT) [0, 1, 2]
      (exB.facesOf 0) rfl (by
        intro i hi
        have hlt : i < exB.faces.length := by
          simp only [List.mem_cons, List.not_mem_nil, or_false] at hi
          simp only [exB, List.length_cons, List.length_nil]; omega
        obtain ⟨_, ha, hb⟩ := h2 .contact i hlt
        simp only [List.mem_cons, List.not_mem_nil, or_false] at hi
        rcases hi with rfl | rfl | rfl
        · exact (ha _ rfl).1
        · exact (hb rfl).1
        · exact (hb rfl).1)
    have : r = [] := by simpa using hr'
    subst this
    exact hr

end Verif.BoundaryCond
