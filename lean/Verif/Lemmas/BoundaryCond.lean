import Verif.Model.BoundaryCond
import Verif.Spec.BoundaryCond
import Verif.Lemmas.MeshTopo
import Verif.Props.MeshTopo
import Mathlib.Data.List.FinRange
/-! Lemmas on the boundary condition store. -/
namespace Verif.BoundaryCond
open Verif.Lookup Verif.MeshTopo Verif.Spec

variable {C F : Type} [LinearOrder F]

/-- Boundary faces as a list of indices. -/
def bIdx (m : Mesh C F) : List Nat :=
  (List.range m.faces.length).filter (fun i => (m.binfo[i]?).any (fun d => d.isB))

theorem zip_filter_map {α β : Type} (a : List α) (b : List β) (hl : b.length = a.length) (p : β → Bool) (k : Nat) (full : List α)
    (hfull : ∀ i (h : i < a.length), full[k + i]? = some a[i]) (bf : List β)
    (hbf : ∀ i (h : i < b.length), bf[k + i]? = some b[i]) :
    (((a.zip b).filter (fun x => p x.2)).map (fun x => some x.1)) =
      ((List.range' k a.length).filter (fun i => (bf[i]?).any p)).map
        (fun i => full[i]?) := by
  induction a generalizing b k with
  | nil => simp
  | cons x xs ih =>
    cases b with
    | nil => simp at hl
    | cons y ys =>
      have h0 := hfull 0 (by simp)
      have hb0 := hbf 0 (by simp)
      simp only [Nat.add_zero, List.getElem_cons_zero] at h0 hb0
      have := ih ys (by simpa using hl) (k + 1)
        (fun i h => by have := hfull (i + 1) (by simpa using h); simpa [Nat.add_assoc, Nat.add_comm 1] using this)
        (fun i h => by have := hbf (i + 1) (by simpa using h); simpa [Nat.add_assoc, Nat.add_comm 1] using this)
      simp only [List.zip_cons_cons, List.length_cons, List.range'_succ, List.filter_cons, hb0, Option.any_some]
      by_cases hp : p y = true
      · simp only [hp, if_true, List.map_cons, h0, this]
      · simp only [hp, Bool.false_eq_true, if_false, this]

theorem boundaryFaces_idx (m : Mesh C F) (hw : WF m) :
    ∃ fs, boundaryFaces m = .ok fs ∧ fs.map some = (bIdx m).map (fun i => m.faces[i]?) := by
  refine ⟨_, (c14_iterators m hw).1, ?_⟩
  rw [List.map_map]
  have := zip_filter_map m.faces m.binfo hw.size (fun d => d.isB) 0 m.faces (by intro i h; simp [h])
    m.binfo (by intro i h; simp [h])
  rw [bIdx, List.range_eq_range']
  exact this

theorem searchLoop_spec (m : Mesh C F) (hw : WF m) (b : Nat) (is : List Nat) (fs : List F)
    (h : fs.map some = is.map (fun i => m.faces[i]?))
    (hb : ∀ i ∈ is, ∃ d, m.binfo[i]? = some d ∧ d.isB = true) :
    searchLoop m b fs = .ok (is.filter (fun i => (m.binfo[i]?).any (fun d => d.id == b))) := by
  induction is generalizing fs with
  | nil =>
    have : fs = [] := by simpa using h
    subst this; rfl
  | cons i is ih =>
    cases fs with
    | nil => simp at h
    | cons f fs =>
      simp only [List.map_cons, List.cons.injEq] at h
      obtain ⟨hi, hf⟩ := List.getElem?_eq_some_iff.1 h.1.symm
      obtain ⟨d, hd, hdb⟩ := hb i (by simp)
      obtain ⟨hi', rfl⟩ := List.getElem?_eq_some_iff.1 hd
      subst hf
      rw [searchLoop, lookup_getElem m hw i hi]
      simp only [Ident.Ident.mk', Ident.Ident.conv, Outcome.bind_ok, Bool.not_true, Bool.false_eq_true,
        if_false]
      rw [boundaryIdOfId_getElem m hw i hi]
      simp only [hdb, if_true, Outcome.bind_ok]
      rw [ih fs h.2 (fun j hj => hb j (List.mem_cons_of_mem _ hj))]
      simp only [Outcome.bind_ok, List.filter_cons, hd, Option.any_some, beq_iff_eq]

theorem lookupLoop_spec (m : Mesh C F) (hw : WF m) (is : List Nat) (fs : List F)
    (h : fs.map some = is.map (fun i => m.faces[i]?)) : lookupLoop m fs = .ok is := by
  induction is generalizing fs with
  | nil =>
    have : fs = [] := by simpa using h
    subst this; rfl
  | cons i is ih =>
    cases fs with
    | nil => simp at h
    | cons f fs =>
      simp only [List.map_cons, List.cons.injEq] at h
      obtain ⟨hi, hf⟩ := List.getElem?_eq_some_iff.1 h.1.symm
      subst hf
      rw [lookupLoop, lookup_getElem m hw i hi]
      simp only [Ident.Ident.mk', Ident.Ident.conv, Outcome.bind_ok, Bool.not_true, Bool.false_eq_true,
        if_false]
      rw [ih fs h.2]
      rfl

/-- Faces covered by a call. -/
def covered {K Fn : Type} (m : Mesh C F) (c : Call K Fn) : List Nat :=
  (List.range m.faces.length).filter (callCovers m c)

theorem mem_bIdx (m : Mesh C F) (i : Nat) (h : i ∈ bIdx m) : ∃ d, m.binfo[i]? = some d ∧ d.isB = true := by
  unfold bIdx at h
  simp only [List.mem_filter] at h
  cases hd : m.binfo[i]? with
  | none => rw [hd] at h; simp at h
  | some d => rw [hd] at h; exact ⟨d, rfl, h.2⟩

theorem searchFaces_spec {K Fn : Type} (m : Mesh C F) (hw : WF m) (b : Nat) (c : Call K Fn)
    (hc : (∃ k t f, c = .add k t b f) ∨ ∃ t, c = .addContact t b) :
    searchFaces m b = .ok (covered m c) := by
  obtain ⟨fs, h1, h2⟩ := boundaryFaces_idx m hw
  unfold searchFaces
  rw [h1, Outcome.bind_ok, searchLoop_spec m hw b _ fs h2 (mem_bIdx m)]
  rw [bIdx, List.filter_filter, covered]
  congr 2
  funext i
  cases hd : m.binfo[i]? with
  | none => rcases hc with ⟨k, t, f, rfl⟩ | ⟨t, rfl⟩ <;> simp [callCovers, hd]
  | some d => rcases hc with ⟨k, t, f, rfl⟩ | ⟨t, rfl⟩ <;> simp [callCovers, hd, Bool.and_comm]

theorem lookupLoop_all {K Fn : Type} (m : Mesh C F) (hw : WF m) (f : Fn) :
    ((boundaryFaces m).bind fun fs => lookupLoop m fs) = .ok (covered m (.everywhere f : Call K Fn)) := by
  obtain ⟨fs, h1, h2⟩ := boundaryFaces_idx m hw
  rw [h1, Outcome.bind_ok, lookupLoop_spec m hw _ fs h2]
  rw [bIdx, covered]
  congr 2
  funext i
  cases hd : m.binfo[i]? with
  | none => simp [callCovers, hd]
  | some d => simp [callCovers, hd]

theorem storeLoop_spec {Fn : Type} (e : Entry) (l : List Nat) (s : KState Fn)
    (hl : ∀ i ∈ l, i < s.faces.length) :
    ∃ s', storeLoop e l s = .ok s' ∧ s'.funcs = s.funcs ∧ s'.count = s.count + l.length ∧
      s'.faces.length = s.faces.length ∧
      ∀ i, s'.faces[i]? = if i ∈ l then (if i < s.faces.length then some e else none) else s.faces[i]? := by
  induction l generalizing s with
  | nil => exact ⟨s, rfl, rfl, rfl, rfl, by simp⟩
  | cons j l ih =>
    have hj := hl j (by simp)
    obtain ⟨s', h1, h2, h3, h4, h5⟩ := ih { s with faces := s.faces.set j e, count := s.count + 1 }
      (by intro i hi; simpa using hl i (List.mem_cons_of_mem _ hi))
    refine ⟨s', ?_, h2, ?_, ?_, ?_⟩
    · rw [storeLoop, if_pos hj]; exact h1
    · rw [h3]; simp only [List.length_cons]; omega
    · rw [h4]; simp
    · intro i
      rw [h5 i]
      simp only [List.length_set, List.mem_cons]
      by_cases hil : i ∈ l
      · simp [hil]
      · by_cases hij : i = j
        · subst hij; simp [hil, hj]
        · have : ¬ j = i := fun h => hij h.symm
          simp [hil, hij, List.getElem?_set, this]

/-- The tuple of a face agrees with the call that governs it. -/
def EntryOK {K Fn : Type} (k : Kind) (funcs : List Fn) (c : Option (Call K Fn)) (e : Entry) : Prop :=
  match c with
  | none => e = initEntry k
  | some c => e.flag = true ∧ e.btype = callType c ∧ e.bid = callId c ∧
    match callFn c with
    | none => e.fid = -1
    | some f => ∃ j : Nat, e.fid = j ∧ funcs[j]? = some f

/-- Number of covered faces, summed over the calls of one kind. -/
def coverCount {K Fn : Type} (m : Mesh C F) (k : Kind) (h : List (Call K Fn)) : Nat :=
  (h.map (fun c => if callKind c = some k then (covered m c).length else 0)).sum

/-- Invariant linking the object and the history. -/
structure Inv {K Fn : Type} (m : Mesh C F) (one : K) (h : List (Call K Fn)) (s : State K Fn) : Prop where
  len : ∀ k, (s.st k).faces.length = m.faces.length
  entry : ∀ k i e, (s.st k).faces[i]? = some e → EntryOK k (s.st k).funcs (lastCall m k i h) e
  count : ∀ k, (s.st k).count = coverCount m k h
  factor : s.factor = lastFactor one h

theorem EntryOK.append {K Fn : Type} {k : Kind} {funcs : List Fn} {c : Option (Call K Fn)} {e : Entry}
    (h : EntryOK k funcs c e) (g : List Fn) : EntryOK k (funcs ++ g) c e := by
  unfold EntryOK at *
  cases c with
  | none => exact h
  | some c =>
    obtain ⟨h1, h2, h3, h4⟩ := h
    refine ⟨h1, h2, h3, ?_⟩
    cases hf : callFn c with
    | none => rw [hf] at h4; exact h4
    | some f =>
      rw [hf] at h4
      obtain ⟨j, h5, h6⟩ := h4
      exact ⟨j, h5, by rw [List.getElem?_append_left (List.getElem?_eq_some_iff.1 h6).1]; exact h6⟩

theorem lastCall_snoc {K Fn : Type} (m : Mesh C F) (k : Kind) (i : Nat) (h : List (Call K Fn)) (c : Call K Fn) :
    lastCall m k i (h ++ [c]) = if concerns m k i c then some c else lastCall m k i h := by
  unfold lastCall
  rw [List.reverse_append]
  simp only [List.reverse_cons, List.reverse_nil, List.nil_append, List.singleton_append,
    List.find?_cons]
  cases concerns m k i c <;> simp

theorem coverCount_snoc {K Fn : Type} (m : Mesh C F) (k : Kind) (h : List (Call K Fn)) (c : Call K Fn) :
    coverCount m k (h ++ [c]) = coverCount m k h + if callKind c = some k then (covered m c).length else 0 := by
  simp [coverCount]

theorem mem_covered {K Fn : Type} (m : Mesh C F) (c : Call K Fn) (i : Nat) :
    i ∈ covered m c ↔ i < m.faces.length ∧ callCovers m c i = true := by
  simp [covered]

/-- Storing what one call adds. -/
theorem put_inv {K Fn : Type} (m : Mesh C F) (one : K) (h : List (Call K Fn)) (s : State K Fn)
    (hi : Inv m one h s) (c : Call K Fn) (k : Kind) (hk : callKind c = some k) (g : List Fn) (e : Entry)
    (he : EntryOK k ((s.st k).funcs ++ g) (some c) e) :
    ∃ x, storeLoop e (covered m c) { s.st k with funcs := (s.st k).funcs ++ g } = .ok x ∧
      Inv m one (h ++ [c]) (s.put k x) := by
  obtain ⟨x, h1, h2, h3, h4, h5⟩ := storeLoop_spec e (covered m c) { s.st k with funcs := (s.st k).funcs ++ g }
    (by intro i hi'; simp only [hi.len k]; exact ((mem_covered m c i).1 hi').1)
  refine ⟨x, h1, ?_⟩
  simp only at h2 h3 h4 h5
  refine ⟨?_, ?_, ?_, ?_⟩
  · intro k'
    unfold State.put
    by_cases hkk : k' = k
    · subst hkk; simp [h4, hi.len]
    · simp [hkk, hi.len]
  · intro k' i e' he'
    unfold State.put at he' ⊢
    rw [lastCall_snoc]
    by_cases hkk : k' = k
    · subst hkk
      simp only [if_true] at he' ⊢
      rw [h5 i] at he'
      rw [h2]
      by_cases hci : i ∈ covered m c
      · rw [if_pos hci] at he'
        obtain ⟨hil, hcov⟩ := (mem_covered m c i).1 hci
        rw [if_pos (by rw [hi.len]; exact hil)] at he'
        have : e = e' := by simpa using he'
        subst this
        rw [if_pos (by simp [concerns, hk, hcov])]
        exact he
      · rw [if_neg hci] at he'
        have hil : i < m.faces.length := by
          rw [← hi.len k']; exact (List.getElem?_eq_some_iff.1 he').1
        have hcov : ¬ callCovers m c i = true := fun hcov => hci ((mem_covered m c i).2 ⟨hil, hcov⟩)
        rw [if_neg (by simp [concerns, hcov])]
        exact (hi.entry k' i e' he').append g
    · simp only [hkk, if_false] at he' ⊢
      rw [if_neg (by simp [concerns, hk, Ne.symm hkk])]
      exact hi.entry k' i e' he'
  · intro k'
    unfold State.put
    rw [coverCount_snoc]
    by_cases hkk : k' = k
    · subst hkk; simp [h3, hi.count, hk]
    · simp [hkk, hi.count, hk, Ne.symm hkk]
  · unfold State.put
    simp only [hi.factor, lastFactor, List.foldl_append, List.foldl_cons, List.foldl_nil]
    cases c <;> simp_all [callKind]

theorem exec_inv {K Fn : Type} (m : Mesh C F) (hw : WF m) (one : K) (h : List (Call K Fn)) (s : State K Fn)
    (hi : Inv m one h s) (c : Call K Fn) : ∃ s', exec m s c = .ok s' ∧ Inv m one (h ++ [c]) s' := by
  cases c with
  | add k t b f =>
    obtain ⟨x, h1, h2⟩ := put_inv m one h s hi (.add k t b f) k rfl [f] ⟨true, t, b, (s.st k).funcs.length⟩
      ⟨rfl, rfl, rfl, ⟨(s.st k).funcs.length, rfl, by simp⟩⟩
    refine ⟨s.put k x, ?_, h2⟩
    simp only [exec, searchFaces_spec (K := K) m hw b (.add k t b f) (Or.inl ⟨k, t, f, rfl⟩), Outcome.bind_ok, h1]
  | addContact t b =>
    obtain ⟨x, h1, h2⟩ := put_inv m one h s hi (.addContact t b) .contact rfl [] ⟨true, t, b, -1⟩
      ⟨rfl, rfl, rfl, rfl⟩
    refine ⟨s.put .contact x, ?_, h2⟩
    rw [List.append_nil] at h1
    simp only [exec, searchFaces_spec (K := K) (Fn := Fn) m hw b (.addContact t b) (Or.inr ⟨t, rfl⟩), Outcome.bind_ok, h1]
  | everywhere f =>
    obtain ⟨x, h1, h2⟩ := put_inv m one h s hi (.everywhere f) .dirichlet rfl [f]
      ⟨true, DIRICHLET, 0, (s.st .dirichlet).funcs.length⟩
      ⟨rfl, rfl, rfl, ⟨(s.st .dirichlet).funcs.length, rfl, by simp⟩⟩
    refine ⟨s.put .dirichlet x, ?_, h2⟩
    have hall := lookupLoop_all (K := K) m hw f
    unfold exec
    cases hb : boundaryFaces m with
    | ok fs =>
      rw [hb] at hall
      simp only [Outcome.bind_ok] at hall ⊢
      rw [hall]
      simp only [Outcome.bind_ok, h1]
    | throws _ => rw [hb] at hall; simp at hall
    | ub _ => rw [hb] at hall; simp at hall
  | scale y =>
    refine ⟨{ s with factor := y }, rfl, ⟨hi.len, ?_, ?_, ?_⟩⟩
    · intro k i e he
      rw [lastCall_snoc, if_neg (by simp [concerns, callKind])]
      exact hi.entry k i e he
    · intro k
      rw [coverCount_snoc]
      simp [callKind, hi.count]
    · simp [lastFactor]

theorem init_inv {K Fn : Type} (m : Mesh C F) (one : K) : Inv m one [] (init m one : State K Fn) := by
  refine ⟨?_, ?_, ?_, rfl⟩
  · intro k; simp [init]
  · intro k i e he
    simp only [init, List.getElem?_replicate] at he
    split at he
    · have : initEntry k = e := by simpa using he
      simp [EntryOK, lastCall, this]
    · simp at he
  · intro k; simp [init, coverCount]

theorem run_inv {K Fn : Type} (m : Mesh C F) (hw : WF m) (one : K) (cs h : List (Call K Fn)) (s : State K Fn)
    (hi : Inv m one h s) : ∃ s', run m s cs = .ok s' ∧ Inv m one (h ++ cs) s' := by
  induction cs generalizing h s with
  | nil => exact ⟨s, rfl, by simpa using hi⟩
  | cons c cs ih =>
    obtain ⟨s1, h1, h2⟩ := exec_inv m hw one h s hi c
    obtain ⟨s2, h3, h4⟩ := ih (h ++ [c]) s1 h2
    exact ⟨s2, by simp only [run, h1, Outcome.bind_ok, h3], by simpa using h4⟩

/-- Number of faces governed by a call of kind `k`. -/
theorem coverCount_disjoint {K Fn : Type} (m : Mesh C F) (k : Kind) (h : List (Call K Fn))
    (hd : h.Pairwise (fun c c' => ∀ i, ¬ (concerns m k i c = true ∧ concerns m k i c' = true))) :
    coverCount m k h = (List.range m.faces.length).countP (fun i => h.any (concerns m k i)) := by
  induction h with
  | nil => simp [coverCount]
  | cons c cs ih =>
    rw [List.pairwise_cons] at hd
    have ih := ih hd.2
    have h1 : coverCount m k (c :: cs) =
        (if callKind c = some k then (covered m c).length else 0) + coverCount m k cs := by
      simp [coverCount]
    have h2 : (if callKind c = some k then (covered m c).length else 0) =
        (List.range m.faces.length).countP (fun i => concerns m k i c) := by
      by_cases hk : callKind c = some k
      · simp only [hk, if_true, covered, concerns, decide_true, Bool.true_and, List.countP_eq_length_filter]
      · simp only [hk, if_false, concerns, decide_false, Bool.false_and]
        simp
    rw [h1, h2, ih]
    generalize List.range m.faces.length = l
    induction l with
    | nil => rfl
    | cons i l ihl =>
      simp only [List.countP_cons, List.any_cons] at ihl ⊢
      have hnot : ¬ (concerns m k i c = true ∧ cs.any (concerns m k i) = true) := by
        rintro ⟨ha, hb⟩
        obtain ⟨c', hc', hcc⟩ := List.any_eq_true.1 hb
        exact hd.1 c' hc' i ⟨ha, hcc⟩
      cases hA : concerns m k i c <;> cases hB : cs.any (concerns m k i) <;> simp_all <;> omega

section
variable {K Fn : Type}

theorem entryAt_of (s : State K Fn) (k : Kind) (i : Nat) (e : Entry) (h : (s.st k).faces[i]? = some e) :
    entryAt s k i = .ok e := by
  unfold entryAt; rw [h]

/-- The governing entry of a stored face. -/
theorem entry_of (m : Mesh C F) (one : K) (h : List (Call K Fn)) (s : State K Fn) (hi : Inv m one h s)
    (k : Kind) (i : Nat) (hl : i < m.faces.length) :
    ∃ e, entryAt s k i = .ok e ∧ EntryOK k (s.st k).funcs (lastCall m k i h) e := by
  have hlt : i < (s.st k).faces.length := by rw [hi.len]; exact hl
  have he : (s.st k).faces[i]? = some (s.st k).faces[i] := by simp
  exact ⟨_, entryAt_of s k i _ he, hi.entry k i _ he⟩

/-- Selecting the faces of a cell by their contact type. -/
theorem facesByType_spec (m : Mesh C F) (hw : WF m) (s : State K Fn) (p : Nat → Bool) (ty : Nat → Nat) (is : List Nat)
    (fs : List F) (h : fs.map some = is.map (fun i => m.faces[i]?))
    (ht : ∀ i ∈ is, typeOf s .contact i = .ok (ty i)) :
    ∃ r, facesByType m s p fs = .ok r ∧ r.map some = (is.filter (fun i => p (ty i))).map (fun i => m.faces[i]?) := by
  induction is generalizing fs with
  | nil =>
    have : fs = [] := by simpa using h
    subst this; exact ⟨[], rfl, rfl⟩
  | cons i is ih =>
    cases fs with
    | nil => simp at h
    | cons f fs =>
      simp only [List.map_cons, List.cons.injEq] at h
      obtain ⟨hi, hf⟩ := List.getElem?_eq_some_iff.1 h.1.symm
      subst hf
      obtain ⟨r, hr, hr'⟩ := ih fs h.2 (fun j hj => ht j (List.mem_cons_of_mem _ hj))
      have : typeOfF m s .contact m.faces[i] = .ok (ty i) := by
        unfold typeOfF viaFace
        rw [lookup_getElem m hw i hi, ← ht i (by simp)]
        simp [Ident.Ident.mk', Ident.Ident.conv]
      refine ⟨if p (ty i) then m.faces[i] :: r else r, ?_, ?_⟩
      · simp only [facesByType, this, Outcome.bind_ok, hr]
      · by_cases hp : p (ty i) = true <;> simp [hp, hr']

theorem howmanyContact_spec (s : State K Fn) (b : Nat → Bool) (is : List Nat)
    (h : ∀ i ∈ is, isFace s .contact i = .ok (b i)) : howmanyContact s is = .ok (is.countP b) := by
  induction is with
  | nil => rfl
  | cons i is ih =>
    simp only [howmanyContact, h i (by simp), Outcome.bind_ok, ih (fun j hj => h j (List.mem_cons_of_mem _ hj)),
      List.countP_cons]
    cases b i <;> simp

end

end Verif.BoundaryCond
