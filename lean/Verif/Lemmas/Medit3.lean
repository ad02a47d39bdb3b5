import Verif.Lemmas.Medit
/-! Three-dimensional Medit files. -/
namespace Verif.Medit
open Verif.MeshFile Verif.MeshTopo Verif.Spec Verif.Spec.Medit Verif.Renumber
open Verif.Fvca5 (unat ucoord unat_nat)
open Verif.Spec.Fvca5 (ordered)

section
variable {K : Type} [Ring K]

omit [Ring K] in
theorem fresh_nat (n : Nat) (h : n < 2 ^ 64) (ts : List (Tok K)) : fresh (natTok n :: ts) = .ok (some (n, ts)) := by
  rw [fresh, if_neg (by simp), unat_nat n h]

omit [Ring K] in
theorem entries_text (l : List Nat) (h : ∀ i ∈ l, i < 2 ^ 64) (ts : List (Tok K)) :
    entries l.length (l.map natTok ++ ts) = .ok (some (l, ts)) := by
  induction l with
  | nil => rfl
  | cons c l ih =>
    rw [List.length_cons, entries, List.map_cons, List.cons_append, fresh_nat _ (h c (by simp)), Outcome.bind_ok]
    dsimp only
    rw [ih fun i hi => h i (List.mem_cons_of_mem _ hi)]
    rfl

omit [Ring K] in
theorem line_text (l : List Nat) (hl : l.length < 2 ^ 64) (h : ∀ i ∈ l, i < 2 ^ 64) (ts : List (Tok K)) :
    line (row l ++ ts) = .ok (some (l, ts)) := by
  unfold line row
  rw [List.cons_append, fresh_nat _ hl, Outcome.bind_ok]
  exact entries_text l h ts

omit [Ring K] in
theorem lines_text (l : List (List Nat)) (h : ∀ r ∈ l, r.length < 2 ^ 64 ∧ ∀ i ∈ r, i < 2 ^ 64) (ts : List (Tok K)) :
    lines l.length (l.flatMap row ++ ts) = .ok (some (l, ts)) := by
  induction l with
  | nil => rfl
  | cons r l ih =>
    obtain ⟨h1, h2⟩ := h r (by simp)
    rw [List.length_cons, lines, List.flatMap_cons, List.append_assoc, line_text r h1 h2, Outcome.bind_ok]
    dsimp only
    rw [ih fun i hi => h i (List.mem_cons_of_mem _ hi)]
    rfl

theorem points3_text (l : List (K × K × K)) (pt : List (Tok K))
    (h : List.Forall₂ CoordTok pt (l.flatMap fun p => [p.1, p.2.1, p.2.2])) (ts : List (Tok K)) :
    points3 l.length (pt ++ ts) = .ok (some (l, ts)) := by
  induction l generalizing pt with
  | nil => cases h; rfl
  | cons p l ih =>
    simp only [List.flatMap_cons, List.cons_append, List.nil_append] at h
    obtain ⟨a, l1, ha, h1, rfl⟩ := List.forall₂_cons_right_iff.1 h
    obtain ⟨b, l2, hb, h2, rfl⟩ := List.forall₂_cons_right_iff.1 h1
    obtain ⟨c, l3, hc, h3, rfl⟩ := List.forall₂_cons_right_iff.1 h2
    simp only [List.length_cons, List.cons_append, points3, ucoord_tok _ _ _ ha, ucoord_tok _ _ _ hb, ucoord_tok _ _ _ hc,
      ih l3 h3, Outcome.bind_ok, Option.map_some]

omit [Ring K] in
theorem bnds3_text (l : List (Nat × Nat)) (h : ∀ b ∈ l, b.1 < 2 ^ 64 ∧ b.2 < 2 ^ 64) (ts : List (Tok K)) :
    bnds3 l.length ((l.flatMap fun b => [natTok b.1, natTok b.2]) ++ ts) = .ok (some (l, ts)) := by
  induction l with
  | nil => rfl
  | cons b l ih =>
    obtain ⟨h1, h2⟩ := h b (by simp)
    simp only [List.length_cons, bnds3, List.flatMap_cons, List.cons_append, List.nil_append, unat_nat _ h1,
      fresh_nat _ h2, Outcome.bind_ok, ih fun i hi => h i (List.mem_cons_of_mem _ hi), Option.map_some]

omit [Ring K] in
theorem edges3_text (l : List (Nat × Nat)) (h : ∀ b ∈ l, b.1 < 2 ^ 64 ∧ b.2 < 2 ^ 64) (ts : List (Tok K)) :
    edges3 l.length ((l.flatMap fun b => [natTok b.1, natTok b.2]) ++ ts) = .ok (l.map fun e => ordered e.1 e.2) := by
  induction l with
  | nil => rfl
  | cons b l ih =>
    obtain ⟨h1, h2⟩ := h b (by simp)
    simp only [List.length_cons, edges3, List.flatMap_cons, List.cons_append, List.nil_append, unat_nat _ h1,
      fresh_nat _ h2, Outcome.bind_ok, ih fun i hi => h i (List.mem_cons_of_mem _ hi), List.map_cons, swapped_ordered]

omit [Ring K] in
theorem sect_table (s : String) (prev : Nat) (l : List (List Nat)) (h : Fits l) (ts : List (Tok K)) :
    sect s prev lines (table s l ++ ts) = .ok (some (l.length, l, ts)) := by
  rw [sect, table]
  simp only [List.cons_append, expect, if_true]
  unfold body
  rw [unat_nat _ h.1]
  dsimp only
  rw [lines_text l h.2]
  rfl

/-- The data of the contents of a file. -/
def data3 (m : Contents K) : Data3 K :=
  ⟨m.points, m.v2f, m.v2v, m.f2e, m.f2v, m.bnd, m.edges.map fun e => ordered e.1 e.2⟩

theorem read3_text (cap : Nat) (m : Contents K) (hm : ContentsOk cap m) (ts : List (Tok K)) (ht : Text ts m) :
    read3 cap ts = .ok (some (data3 m)) := by
  obtain ⟨pt, rest, hp, rfl⟩ := ht
  simp only [List.append_assoc, read3, header_head]
  have hb : ∀ b ∈ m.bnd, b.1 < 2 ^ 64 ∧ b.2 < 2 ^ 64 := fun b hb =>
    ⟨(hm.bnd b hb).1.trans hm.f2e.1, (hm.bnd b hb).2⟩
  have h1 : ∀ ts : List (Tok K), sect "volumes" m.f2v.length bnds3 (.word "volumes" :: natTok m.bnd.length ::
      ((m.bnd.flatMap fun b => [natTok b.1, natTok b.2]) ++ ts)) = .ok (some (m.bnd.length, m.bnd, ts)) := by
    intro ts
    rw [sect]
    simp only [expect, if_true]
    unfold body
    rw [unat_nat _ hm.nbnd]
    dsimp only
    rw [bnds3_text m.bnd hb]
    rfl
  have h2 : lastSect m.bnd.length (.word "Edges" :: natTok m.edges.length ::
      ((m.edges.flatMap fun b => [natTok b.1, natTok b.2]) ++ rest)) =
      .ok (some (m.edges.map fun e => ordered e.1 e.2)) := by
    rw [lastSect]
    simp only [expect, if_true]
    rw [unat_nat _ hm.nedges]
    dsimp only
    rw [edges3_text m.edges hm.edge]
    rfl
  rw [sections]
  simp only [List.cons_append, expect, if_true, count_nat cap _ hm.bound hm.points, Outcome.bind_ok, points3_text m.points pt hp,
    andThen, sect_table _ _ _ hm.v2f, sect_table _ _ _ hm.v2v, sect_table _ _ _ hm.f2e, sect_table _ _ _ hm.f2v, h1, h2]
  rfl

end

theorem marks_spec (t : List Nat) (n : Nat) (ht : t.length = n) (hp : PermBelow n (posOf t)) (bs : List (Nat × Nat))
    (hb : ∀ b ∈ bs, b.1 < n) (info : List BDesc) (hl : info.length = n) :
    ∃ r, marks t bs info = .ok r ∧ r.length = n ∧ ∀ i, i < n →
      r[posOf t i]? = match faceNumber bs i with
        | some k => some (BDesc.mk2 k true)
        | none => info[posOf t i]? := by
  induction bs generalizing info with
  | nil => exact ⟨info, rfl, hl, fun i _ => rfl⟩
  | cons b bs ih =>
    have hb1 := hb b (by simp)
    have hget : t[b.1]? = some (posOf t b.1) := by
      rw [List.getElem?_eq_getElem (by omega)]
      simp [posOf, ht, hb1]
    have hlt : posOf t b.1 < info.length := hl ▸ permBelow_lt hp hb1
    obtain ⟨r, h1, h2, h3⟩ := ih (fun x hx => hb x (List.mem_cons_of_mem _ hx)) (info.set (posOf t b.1) (BDesc.mk2 b.2 true))
      (by simpa using hl)
    refine ⟨r, ?_, h2, fun i hi => ?_⟩
    · rw [marks, hget]
      dsimp only
      rw [if_pos hlt, h1]
    · rw [h3 i hi]
      have hf : faceNumber (b :: bs) i = (faceNumber bs i).or (if b.1 = i then some b.2 else none) := by
        unfold faceNumber
        by_cases hbi : b.1 = i
        · simp only [List.filter_cons, hbi, decide_true, if_true, List.getLast?_cons]
          cases (bs.filter fun b => decide (b.1 = i)).getLast? <;> rfl
        · simp only [List.filter_cons, hbi, decide_false, Bool.false_eq_true, if_false, Option.or_none]
      rw [hf]
      cases faceNumber bs i with
      | some k => rfl
      | none =>
        by_cases hbi : b.1 = i
        · subst hbi
          simp [hlt]
        · have hne : posOf t b.1 ≠ posOf t i := fun h => hbi (permBelow_inj hp hb1 hi h)
          simp [hbi, hne]

section
variable {K : Type}

theorem populate3_text {srt : List Entry → List Entry} (hs : Renumber.IsSort srt) (cap : Nat) (m : Contents K)
    (hm : ContentsOk cap m) :
    ∃ L π σ τ, populate3 srt (data3 m) = .ok (false, L) ∧ MeshOf3 m L π σ τ := by
  have hmem : ∀ (l : List (List Nat)) (x : Entry), x ∈ enumerate l → x.2 ∈ l := by
    intro l x hx
    exact List.mem_of_getElem? ((mem_enumerate l x.1 x.2).1 hx)
  obtain ⟨L, t, t', τ, h1, h2, h3, h4, h5, h6, h7, h8, h9, h10, h11, h12, h13⟩ :=
    populate3_ok (.ub "conv_table[first] out of range") hs
      ⟨enumerate (data3 m).edges, enumerate m.f2e, m.f2v, enumerate m.v2f, m.v2v⟩ (by
        refine { e := ?_, f := ?_, fe := ?_, fv := ?_, v := ?_, vf := ?_, vv := ?_ }
        · simp only [enumerate_fst, enumerate_length]; exact .refl _
        · simp only [enumerate_fst, enumerate_length]; exact .refl _
        · simp only [enumerate_length, data3, List.length_map]; exact fun x hx => hm.fe _ (hmem _ x hx)
        · simp only [enumerate_length]; exact hm.fv
        · simp only [enumerate_fst, enumerate_length]; exact .refl _
        · simp only [enumerate_length]; exact fun x hx => hm.vf _ (hmem _ x hx)
        · simp only [enumerate_length]; exact hm.vv)
  simp only [enumerate_length] at h2 h3 h4 h5 h6
  have hel : (data3 m).edges.length = m.edges.length := by simp [data3]
  have hfl : L.faces.length = m.f2e.length := by rw [h8.1, enumerate_length]
  obtain ⟨b, hb1, hb2, hb3⟩ := marks_spec t' m.f2e.length h3 h5 m.bnd (fun x hx => (hm.bnd x hx).1)
    (List.replicate m.f2e.length BDesc.default) (by simp)
  refine ⟨⟨m.points, mkNodes m.points.length, L.edges, L.faces, L.vols, b⟩, posOf t, posOf t', τ, ?_,
    ⟨rfl, rfl, hel ▸ h4, h5, h6, ?_, hfl, ?_, ?_, ?_, ?_, h10, h11, h12, hb2, ?_⟩⟩
  · unfold populate3
    simp only [data3] at h1 ⊢
    rw [h1, Outcome.bind_ok]
    dsimp only
    rw [hfl, hb1]
    rfl
  · dsimp only
    rw [h7.1, enumerate_length, hel]
  · dsimp only
    rw [h9.1, enumerate_length]
  · intro i e he
    exact h7.2 i _ ((mem_enumerate _ _ _).2 (by simp [data3, he]))
  · intro i es vs he hv
    dsimp only
    rw [h8.2 i es ((mem_enumerate _ _ _).2 he)]
    simp [List.getD_eq_getElem?_getD, hv]
  · intro i es vs he hv
    dsimp only
    rw [h9.2 i es ((mem_enumerate _ _ _).2 he)]
    simp [List.getD_eq_getElem?_getD, hv]
  · intro i hi
    have := hb3 i hi
    have hlt := permBelow_lt h5 hi
    cases hf : faceNumber m.bnd i with
    | some k => rw [hf] at this; exact ⟨_, this, rfl, rfl, rfl⟩
    | none =>
      rw [hf] at this
      simp only [List.getElem?_replicate, if_pos hlt] at this
      exact ⟨_, this, rfl, rfl, rfl⟩

end

end Verif.Medit
