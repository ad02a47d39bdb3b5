import Verif.Model.Neighbours
import Verif.Spec.Neighbours
import Verif.Lemmas.MeshTopo
import Mathlib.Data.List.Nodup
/-! Lemmas on the connectivity loops. -/
namespace Verif.Neighbours
open Verif.Lookup Verif.MeshTopo Verif.Spec

variable {C F : Type} [LinearOrder F]

/-- Cells recorded for a face by a list of (cell, face) incidences, in order. -/
def occ (inc : List (Nat × F)) (f : F) : List Nat := (inc.filter (fun x => x.2 = f)).map Prod.fst

/-- First two of them. -/
def own (inc : List (Nat × F)) (f : F) : Owner := ((occ inc f)[0]?, (occ inc f)[1]?)

/-- Incidences of a list of cells numbered from `k`. -/
def incOf (facesOf : C → List F) (cs : List C) (k : Nat) : List (Nat × F) :=
  (cs.zipIdx k).flatMap (fun x => (facesOf x.1).map (fun f => (x.2, f)))

/-- Running the loop body on a list of incidences. -/
def addAll (faces : List F) : List (Nat × F) → List Owner → Outcome (List Owner)
  | [], o => .ok o
  | x :: xs, o => (addFace faces x.1 x.2 o).bind fun o => addAll faces xs o

theorem addAll_append (faces : List F) (a b : List (Nat × F)) (o : List Owner) :
    addAll faces (a ++ b) o = (addAll faces a o).bind fun o => addAll faces b o := by
  induction a generalizing o with
  | nil => rfl
  | cons x xs ih =>
    simp only [List.cons_append, addAll]
    cases addFace faces x.1 x.2 o <;> simp [ih]

theorem faceLoop_eq (faces : List F) (ci : Nat) (fs : List F) (o : List Owner) :
    faceLoop faces ci fs o = addAll faces (fs.map (fun f => (ci, f))) o := by
  induction fs generalizing o with
  | nil => rfl
  | cons x xs ih => simp only [faceLoop, List.map_cons, addAll, ih]

theorem cellLoop_eq [LT C] [DecidableLT C] (m : Mesh C F) (cs : List C) (k : Nat) (o : List Owner) :
    cellLoop m cs k o = addAll m.faces (incOf m.facesOf cs k) o := by
  induction cs generalizing k o with
  | nil => rfl
  | cons c cs ih =>
    simp only [cellLoop, incOf, List.zipIdx_cons, List.flatMap_cons, addAll_append, faceLoop_eq]
    congr 1
    funext o
    exact ih (k + 1) o

theorem occ_append (a b : List (Nat × F)) (f : F) : occ (a ++ b) f = occ a f ++ occ b f := by
  simp [occ]

theorem occ_length (inc : List (Nat × F)) (f : F) : (occ inc f).length = (inc.map Prod.snd).count f := by
  induction inc with
  | nil => rfl
  | cons x xs ih =>
    unfold occ at ih ⊢
    by_cases h : x.2 = f <;> simp_all

/-- Overwriting the entry of one element of a duplicate-free list. -/
theorem map_set_nodup {α β : Type} (l : List α) (hn : l.Nodup) (g g' : α → β) (i : Nat) (h : i < l.length)
    (v : β) (hv : g' l[i] = v) (hg : ∀ x, x ≠ l[i] → g' x = g x) :
    (l.map g).set i v = l.map g' := by
  apply List.ext_getElem
  · simp
  · intro j h1 h2
    simp only [List.length_map] at h2
    rw [List.getElem_set]
    split
    · next he => subst he; simp [hv]
    · next he =>
      simp only [List.getElem_map]
      rw [hg]
      intro hc
      exact he ((hn.getElem_inj_iff.1 hc).symm)

theorem strictSorted_nodup (l : List F) (hs : StrictSorted l) : l.Nodup := by
  have := (strictSorted_iff_pairwise l).1 hs
  exact this.imp (fun h => ne_of_lt h)

/-- One step on a table that agrees with the incidences seen so far. -/
theorem addFace_step (faces : List F) (hs : StrictSorted faces) (inc : List (Nat × F)) (ci : Nat) (f : F) :
    (f ∉ faces → (addFace faces ci f (faces.map (own inc))).Throws) ∧
    (f ∈ faces → 2 ≤ (occ inc f).length → (addFace faces ci f (faces.map (own inc))).Throws) ∧
    (f ∈ faces → (occ inc f).length < 2 →
      addFace faces ci f (faces.map (own inc)) = .ok (faces.map (own (inc ++ [(ci, f)])))) := by
  have hnf := (c03_not_found_iff faces hs f).1
  have hn := strictSorted_nodup faces hs
  refine ⟨fun h => ?_, ?_⟩
  · unfold addFace
    rw [hnf.2 h]; simp
  rw [← imp_and]
  intro h
  have hfd : (findElementId faces f).1 = true := by
    by_contra hc
    rw [Bool.not_eq_true] at hc
    exact hnf.1 hc h
  obtain ⟨i, hi, rfl⟩ := List.mem_iff_getElem.1 h
  have hoff := (c04_offset_stored_partial faces hs i hi).1
  have hrow : (faces.map (own inc))[i]? = some (own inc faces[i]) := by
    simp [List.getElem?_eq_getElem hi]
  unfold addFace
  rw [hfd, hoff]
  simp only [Bool.not_true, Bool.false_eq_true, if_false, Outcome.bind_ok, hrow]
  have hother : ∀ x, x ≠ faces[i] → own (inc ++ [(ci, faces[i])]) x = own inc x := by
    intro x hx
    have : occ (inc ++ [(ci, faces[i])]) x = occ inc x := by
      rw [occ_append]; simp [occ, Ne.symm hx]
    simp [own, this]
  have hself : occ (inc ++ [(ci, faces[i])]) faces[i] = occ inc faces[i] ++ [ci] := by
    rw [occ_append]; simp [occ]
  constructor
  · intro h2
    match ho : occ inc faces[i] with
    | [] => simp [ho] at h2
    | [a] => simp [ho] at h2
    | a :: b :: t => simp [own, ho]
  · intro h2
    match ho : occ inc faces[i] with
    | [] =>
      simp only [own, ho, List.getElem?_nil]
      congr 1
      apply map_set_nodup faces hn _ _ i hi _ _ hother
      simp [own, hself, ho]
    | [a] =>
      have e : own inc faces[i] = (some a, none) := by simp [own, ho]
      simp only [e]
      congr 1
      apply map_set_nodup faces hn _ _ i hi _ _ hother
      simp [own, hself, ho]
    | a :: b :: t => simp only [ho, List.length_cons] at h2; omega

theorem occ_length_append_le (a b : List (Nat × F)) (f : F) : (occ a f).length ≤ (occ (a ++ b) f).length := by
  rw [occ_append]; simp

/-- The whole loop: it succeeds exactly when every face is stored and no face occurs three times,
and then the table holds the first two cells of each face. -/
theorem addAll_spec (faces : List F) (hs : StrictSorted faces) (todo done : List (Nat × F))
    (hd : ∀ f, (occ done f).length ≤ 2) :
    (((∀ x ∈ todo, x.2 ∈ faces) ∧ ∀ f, (occ (done ++ todo) f).length ≤ 2) →
      addAll faces todo (faces.map (own done)) = .ok (faces.map (own (done ++ todo)))) ∧
    (¬ ((∀ x ∈ todo, x.2 ∈ faces) ∧ ∀ f, (occ (done ++ todo) f).length ≤ 2) →
      (addAll faces todo (faces.map (own done))).Throws) := by
  induction todo generalizing done with
  | nil =>
    constructor
    · intro _; simp [addAll]
    · intro h; exact absurd ⟨by simp, by simpa using hd⟩ h
  | cons x xs ih =>
    obtain ⟨h1, h2, h3⟩ := addFace_step faces hs done x.1 x.2
    have happ : done ++ x :: xs = (done ++ [(x.1, x.2)]) ++ xs := by simp
    by_cases hm : x.2 ∈ faces
    · by_cases hc : (occ done x.2).length < 2
      · have hd' : ∀ f, (occ (done ++ [(x.1, x.2)]) f).length ≤ 2 := by
          intro f
          by_cases hf : x.2 = f
          · subst hf
            rw [occ_append]
            simp only [occ, List.length_append] at hc ⊢
            simp at hc ⊢
            omega
          · rw [occ_append]
            have := hd f
            simp only [occ, List.length_append] at this ⊢
            simp [hf]
            simpa using this
        have := ih (done ++ [(x.1, x.2)]) hd'
        simp only [addAll, h3 hm hc, Outcome.bind_ok, happ]
        constructor
        · rintro ⟨ha, hb⟩
          exact this.1 ⟨fun y hy => ha y (List.mem_cons_of_mem _ hy), hb⟩
        · intro hn
          apply this.2
          rintro ⟨ha, hb⟩
          apply hn
          refine ⟨?_, hb⟩
          intro y hy
          rcases List.mem_cons.1 hy with rfl | hy
          · exact hm
          · exact ha y hy
      · constructor
        · rintro ⟨_, hb⟩
          have h4 := hb x.2
          rw [happ] at h4
          have h5 := occ_length_append_le (done ++ [(x.1, x.2)]) xs x.2
          have h6 : (occ (done ++ [(x.1, x.2)]) x.2).length = (occ done x.2).length + 1 := by
            rw [occ_append]; simp [occ]
          omega
        · intro _
          have := h2 hm (by omega)
          simp only [addAll]
          cases hr : addFace faces x.1 x.2 (faces.map (own done)) with
          | ok a => rw [hr] at this; simp at this
          | throws s => simp
          | ub s => rw [hr] at this; simp at this
    · constructor
      · rintro ⟨ha, _⟩
        exact absurd (ha x (by simp)) hm
      · intro _
        have := h1 hm
        simp only [addAll]
        cases hr : addFace faces x.1 x.2 (faces.map (own done)) with
        | ok a => rw [hr] at this; simp at this
        | throws s => simp
        | ub s => rw [hr] at this; simp at this

theorem incOf_snd (facesOf : C → List F) (cs : List C) (k : Nat) :
    (incOf facesOf cs k).map Prod.snd = cs.flatMap facesOf := by
  induction cs generalizing k with
  | nil => rfl
  | cons c cs ih =>
    have := ih (k + 1)
    simp only [incOf] at this
    simp only [incOf, List.zipIdx_cons, List.flatMap_cons, List.map_append, this]
    simp [Function.comp_def]

theorem occ_incOf_length (facesOf : C → List F) (cs : List C) (k : Nat) (f : F) :
    (occ (incOf facesOf cs k) f).length = occurrences cs facesOf f := by
  rw [occ_length, incOf_snd, occurrences]

/-- With distinct faces per cell, the recorded cells are the numbers of the cells having the face. -/
theorem occ_incOf (facesOf : C → List F) (cs : List C) (k : Nat) (f : F)
    (hn : ∀ c ∈ cs, (facesOf c).Nodup) :
    occ (incOf facesOf cs k) f = ((cs.zipIdx k).filter (fun x => f ∈ facesOf x.1)).map Prod.snd := by
  induction cs generalizing k with
  | nil => rfl
  | cons c cs ih =>
    have := ih (k + 1) (fun c hc => hn c (List.mem_cons_of_mem _ hc))
    simp only [incOf] at this
    simp only [incOf, List.zipIdx_cons, List.flatMap_cons, occ_append, this]
    have hc := hn c (by simp)
    have h1 : occ ((facesOf c).map (fun f => (k, f))) f = if f ∈ facesOf c then [k] else [] := by
      generalize facesOf c = l at hc
      clear this ih
      induction l with
      | nil => rfl
      | cons a t iht =>
        rw [List.nodup_cons] at hc
        have iht := iht hc.2
        unfold occ at iht ⊢
        by_cases ha : a = f
        · subst ha
          simp only [hc.1, if_false] at iht
          simp [iht]
        · simp only [List.map_cons, List.filter_cons, ha, decide_false, Bool.false_eq_true, if_false]
          rw [iht]
          simp [Ne.symm ha]
    rw [h1]
    by_cases hf : f ∈ facesOf c <;> simp [hf]

theorem occ_incOf_mem (facesOf : C → List F) (cs : List C) (f : F)
    (hn : ∀ c ∈ cs, (facesOf c).Nodup) (i : Nat) :
    i ∈ occ (incOf facesOf cs 0) f ↔ ∃ h : i < cs.length, f ∈ facesOf cs[i] := by
  rw [occ_incOf facesOf cs 0 f hn]
  simp only [List.mem_map, List.mem_filter, Prod.exists, List.mem_zipIdx_iff_getElem?, decide_eq_true_eq]
  constructor
  · rintro ⟨c, j, ⟨h1, h2⟩, rfl⟩
    obtain ⟨hj, rfl⟩ := List.getElem?_eq_some_iff.1 h1
    exact ⟨hj, h2⟩
  · rintro ⟨h, hf⟩
    exact ⟨cs[i], i, ⟨by simp [h], hf⟩, rfl⟩

theorem occ_incOf_nodup (facesOf : C → List F) (cs : List C) (f : F)
    (hn : ∀ c ∈ cs, (facesOf c).Nodup) : (occ (incOf facesOf cs 0) f).Nodup := by
  rw [occ_incOf facesOf cs 0 f hn]
  have h1 : ((cs.zipIdx 0).map Prod.snd).Nodup := by
    rw [List.zipIdx_map_snd]; exact List.nodup_range'
  exact h1.sublist (List.filter_sublist.map _)

/-! ### Counting -/

theorem countFaces_spec (faces : List F) (hs : StrictSorted faces) (fs done : List F)
    (hm : ∀ f ∈ fs, f ∈ faces) :
    countFaces faces fs (faces.map (fun f => done.count f)) =
      .ok (faces.map (fun f => (done ++ fs).count f)) := by
  induction fs generalizing done with
  | nil => simp [countFaces]
  | cons x xs ih =>
    obtain ⟨i, hi, rfl⟩ := List.mem_iff_getElem.1 (hm x (by simp))
    have hoff := (c04_offset_stored_partial faces hs i hi).1
    simp only [countFaces, hoff, Outcome.bind_ok, List.getElem?_map, List.getElem?_eq_getElem hi,
      Option.map_some]
    rw [map_set_nodup faces (strictSorted_nodup faces hs) _ (fun f => (done ++ [faces[i]]).count f) i hi _
      (by simp) (by intro x hx; simp [List.count_append, List.count_cons, Ne.symm hx])]
    rw [ih _ (fun f hf => hm f (List.mem_cons_of_mem _ hf))]
    simp

theorem countCells_spec (m : Mesh C F) (hs : StrictSorted m.faces) (cs : List C) (done : List F)
    (hm : ∀ c ∈ cs, ∀ f ∈ m.facesOf c, f ∈ m.faces) :
    countCells m cs (m.faces.map (fun f => done.count f)) =
      .ok (m.faces.map (fun f => (done ++ cs.flatMap m.facesOf).count f)) := by
  induction cs generalizing done with
  | nil => simp [countCells]
  | cons c cs ih =>
    simp only [countCells, countFaces_spec m.faces hs _ done (hm c (by simp)), Outcome.bind_ok]
    rw [ih _ (fun c hc => hm c (List.mem_cons_of_mem _ hc))]
    simp

/-- The marking of one descriptor. -/
def mark (bi : BDesc) (k : Nat) : BDesc := if bi.isB && k == 2 then bi.setInt true else bi

theorem markLoop_spec (nc : List Nat) (hk : ∀ k ∈ nc, k ≤ 2) (j : Nat) (b : List BDesc)
    (hb : b.length = nc.length) (hj : j ≤ nc.length) :
    markLoop nc.length nc (List.range' (nc.length - j) j) b =
      .ok (b.take (nc.length - j) ++ (List.zipWith mark b nc).drop (nc.length - j)) := by
  induction j generalizing b with
  | zero => simp [markLoop, ← hb]
  | succ j ih =>
    have hlt : nc.length - (j + 1) < nc.length := by omega
    have hlb : nc.length - (j + 1) < b.length := by omega
    have hle := hk _ (List.getElem_mem hlt)
    have h3 : nc[nc.length - (j + 1)] = 0 ∨ nc[nc.length - (j + 1)] = 1 ∨ nc[nc.length - (j + 1)] = 2 := by
      omega
    have hnext : nc.length - (j + 1) + 1 = nc.length - j := by omega
    rw [List.range'_succ, markLoop]
    simp only [List.getElem?_eq_getElem hlt, if_pos h3, hb, if_true, List.getElem?_eq_getElem hlb]
    rw [hnext, ih _ (by simp [hb]) (by omega)]
    congr 1
    apply List.ext_getElem
    · simp [hb]
    · intro n h1 h2
      simp only [List.length_append, List.length_take, List.length_drop, List.length_zipWith,
        List.length_set] at h1
      rw [List.getElem_append, List.getElem_append]
      simp only [List.length_take, List.length_set, hb]
      by_cases hn1 : n < nc.length - (j + 1)
      · rw [dif_pos (by omega), dif_pos (by omega), List.getElem_take, List.getElem_take,
          List.getElem_set_of_ne (by omega)]
      · rw [dif_neg (by omega : ¬ n < min (nc.length - (j + 1)) nc.length)]
        by_cases hn2 : n < nc.length - j
        · have : n = nc.length - (j + 1) := by omega
          subst this
          rw [dif_pos (by omega), List.getElem_take, List.getElem_set_self]
          simp only [List.getElem_drop, List.getElem_zipWith, mark]
          congr <;> omega
        · rw [dif_neg (by omega)]
          simp only [List.getElem_drop, List.getElem_zipWith]
          have e1 : nc.length - j + (n - min (nc.length - j) nc.length) = n := by omega
          have e2 : nc.length - (j + 1) + (n - min (nc.length - (j + 1)) nc.length) = n := by omega
          simp only [e1, e2]
          rw [List.getElem_set_of_ne (by omega)]

theorem markLoop_ub (nc : List Nat) (hk : ∃ k ∈ nc, 2 < k) (j : Nat) (b : List BDesc)
    (hb : b.length = nc.length) (hj : j ≤ nc.length) (hlast : ∀ i (h : i < nc.length), 2 < nc[i] → nc.length - j ≤ i) :
    (markLoop nc.length nc (List.range' (nc.length - j) j) b).IsUB := by
  induction j generalizing b with
  | zero =>
    obtain ⟨k, hk, h2⟩ := hk
    obtain ⟨i, hi, rfl⟩ := List.mem_iff_getElem.1 hk
    have := hlast i hi h2
    omega
  | succ j ih =>
    have hlt : nc.length - (j + 1) < nc.length := by omega
    have hlb : nc.length - (j + 1) < b.length := by omega
    have hnext : nc.length - (j + 1) + 1 = nc.length - j := by omega
    rw [List.range'_succ, markLoop]
    simp only [List.getElem?_eq_getElem hlt, hb, if_true, List.getElem?_eq_getElem hlb]
    split
    · next h3 =>
      rw [hnext]
      apply ih _ (by simp [hb]) (by omega)
      intro i h hgt
      have h4 := hlast i h hgt
      by_contra hc
      have : i = nc.length - (j + 1) := by omega
      subst this
      omega
    · simp

end Verif.Neighbours
