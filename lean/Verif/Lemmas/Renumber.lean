import Verif.Model.Renumber
import Verif.Spec.Renumber
import Mathlib.Data.List.Nodup
/-! Lemmas for C31. -/
namespace Verif.Renumber
open Spec

theorem resize_length (t : List Nat) (n : Nat) : (resize t n).length = n := by
  simp [resize]; omega

theorem fill_ok (bad : Outcome (List Nat)) (xs : List Entry) (t : List Nat) (k : Nat)
    (hn : (xs.map Prod.fst).Nodup) (hlt : ∀ x ∈ xs, x.1 < t.length) :
    ∃ t', fill bad t k xs = .ok t' ∧ t'.length = t.length ∧
      (∀ (i : Nat) (x : Entry), xs[i]? = some x → t'[x.1]? = some (k + i)) ∧
      (∀ j, j ∉ xs.map Prod.fst → t'[j]? = t[j]?) := by
  induction xs generalizing t k with
  | nil => exact ⟨t, rfl, rfl, by simp, fun _ _ => rfl⟩
  | cons y ys ih =>
    simp only [List.map_cons, List.nodup_cons] at hn
    obtain ⟨t', h1, h2, h3, h4⟩ := ih (t.set y.1 k) (k + 1) hn.2 (by
      intro x hx; rw [List.length_set]; exact hlt x (List.mem_cons_of_mem _ hx))
    have hy := hlt y List.mem_cons_self
    refine ⟨t', ?_, by rw [h2, List.length_set], ?_, ?_⟩
    · rw [fill, if_pos hy]; exact h1
    · intro i x hx
      cases i with
      | zero =>
        simp only [List.getElem?_cons_zero, Option.some.injEq] at hx
        subst hx
        rw [h4 _ hn.1]
        simp [hy]
      | succ i =>
        simp only [List.getElem?_cons_succ] at hx
        rw [h3 i x hx]; congr 1; omega
    · intro j hj
      simp only [List.map_cons, List.mem_cons, not_or] at hj
      rw [h4 j hj.2, List.getElem?_set_ne (Ne.symm hj.1)]

/-- The position function of a table. -/
def posOf (t : List Nat) (i : Nat) : Nat := t.getD i 0

theorem map_posOf (t : List Nat) : (List.range t.length).map (posOf t) = t := by
  apply List.ext_getElem
  · simp
  · intro i h1 h2
    simp [posOf, List.getD_eq_getElem?_getD, h2]

/-- Filling a table of the right size with entities numbered by a permutation. -/
theorem fill_perm (bad : Outcome (List Nat)) (xs : List Entry) (t : List Nat) (ht : t.length = xs.length)
    (hp : (xs.map Prod.fst).Perm (List.range xs.length)) :
    ∃ t', fill bad t 0 xs = .ok t' ∧ t'.length = xs.length ∧ PermBelow xs.length (posOf t') ∧
      (∀ (i : Nat) (x : Entry), xs[i]? = some x → posOf t' x.1 = i) := by
  obtain ⟨t', h1, h2, h3, _⟩ := fill_ok bad xs t 0 (hp.nodup_iff.2 List.nodup_range) (by
    intro x hx
    rw [ht]
    exact List.mem_range.1 (hp.mem_iff.1 (List.mem_map.2 ⟨x, hx, rfl⟩)))
  have h5 : ∀ (i : Nat) (x : Entry), xs[i]? = some x → posOf t' x.1 = i := by
    intro i x hx
    simp [posOf, List.getD_eq_getElem?_getD, h3 i x hx]
  refine ⟨t', h1, by rw [h2, ht], ?_, h5⟩
  have h6 : (xs.map Prod.fst).map (posOf t') = List.range xs.length := by
    apply List.ext_getElem
    · simp
    · intro i a b
      simp only [List.length_map] at a
      simp only [List.getElem_map, List.getElem_range]
      exact h5 i _ (List.getElem?_eq_getElem a)
  have := (hp.map (posOf t')).symm
  rw [h6] at this
  exact this

theorem relink_ok (t : List Nat) (rs : List Nat) (h : ∀ r ∈ rs, r < t.length) :
    relink t rs = .ok (rs.map (posOf t)) := by
  induction rs with
  | nil => rfl
  | cons r rs ih =>
    have hr := List.getElem?_eq_getElem (h r List.mem_cons_self)
    rw [relink, hr]
    simp only [ih fun x hx => h x (List.mem_cons_of_mem _ hx), List.map_cons]
    simp [posOf, List.getD_eq_getElem?_getD, hr]

theorem relinkAll_ok (t : List Nat) (xs : List Entry) (h : ∀ x ∈ xs, ∀ r ∈ x.2, r < t.length) :
    relinkAll t xs = .ok (xs.map fun x => (x.1, x.2.map (posOf t))) := by
  induction xs with
  | nil => rfl
  | cons x xs ih =>
    rw [relinkAll, relink_ok t x.2 (h x List.mem_cons_self), Outcome.bind_ok,
      ih fun y hy => h y (List.mem_cons_of_mem _ hy)]
    rfl

theorem withPoints_ok (vts : List (List Nat)) (xs : List Entry) (h : ∀ x ∈ xs, x.1 < vts.length) :
    withPoints vts xs = .ok (xs.map fun x => (x.2, vts.getD x.1 [])) := by
  induction xs with
  | nil => rfl
  | cons x xs ih =>
    have hx := List.getElem?_eq_getElem (h x List.mem_cons_self)
    rw [withPoints, hx]
    simp only [ih fun y hy => h y (List.mem_cons_of_mem _ hy), Outcome.bind_ok, List.map_cons]
    simp [List.getD_eq_getElem?_getD, hx]

/-- What the readers must provide: the numbers of the entities of each kind are `0 … n-1` in some order, and
references are to existing entities. -/
structure Raw.WF (r : Raw) : Prop where
  e : (r.edges.map Prod.fst).Perm (List.range r.edges.length)
  f : (r.f2e.map Prod.fst).Perm (List.range r.f2e.length)
  fe : ∀ x ∈ r.f2e, ∀ i ∈ x.2, i < r.edges.length
  fv : r.f2v.length = r.f2e.length

/-- The same for the volumes. -/
structure Raw.WF3 (r : Raw) : Prop extends Raw.WF r where
  v : (r.v2f.map Prod.fst).Perm (List.range r.v2f.length)
  vf : ∀ x ∈ r.v2f, ∀ i ∈ x.2, i < r.f2e.length
  vv : r.v2v.length = r.v2f.length

/-- Position of the entity numbered `i` in a list. -/
theorem moved_sort {srt : List Entry → List Entry} (hs : IsSort srt) (l : List Entry) {β : Type}
    (g : Entry → β) (π : Nat → Nat) (hπ : ∀ (i : Nat) (x : Entry), (srt l)[i]? = some x → π x.1 = i) :
    Moved π (fun i x => g (i, x)) l ((srt l).map g) := by
  refine ⟨by simp [(hs l).1.length_eq], fun i x hx => ?_⟩
  obtain ⟨k, hk⟩ := List.getElem?_of_mem ((hs l).1.mem_iff.2 hx)
  rw [hπ k _ hk, List.getElem?_map, hk]; rfl

theorem populateFaces_ok (badE : Outcome (List Nat)) {srt : List Entry → List Entry} (hs : IsSort srt) (r : Raw)
    (h : r.WF) :
    ∃ es fs t t', populateFaces badE srt r = .ok (es, fs, t, t') ∧ t.length = r.edges.length ∧
      t'.length = r.f2e.length ∧ PermBelow r.edges.length (posOf t) ∧ PermBelow r.f2e.length (posOf t') ∧
      Moved (posOf t) (fun _ e => e) r.edges es ∧
      Moved (posOf t') (fun i x => (x.map (posOf t), r.f2v.getD i [])) r.f2e fs ∧
      es.Pairwise (fun a b => ¬ b < a) ∧ (fs.map Prod.fst).Pairwise (fun a b => ¬ b < a) ∧
      es.Perm (r.edges.map Prod.snd) := by
  obtain ⟨p1, q1⟩ := hs r.edges
  have hl1 : (srt r.edges).length = r.edges.length := p1.length_eq
  obtain ⟨t, a1, a2, a3, a4⟩ := fill_perm badE (srt r.edges) (resize [] (srt r.edges).length) (resize_length _ _)
    (by rw [hl1]; exact (p1.map Prod.fst).trans h.e)
  rw [hl1] at a2 a3
  have e1 := relinkAll_ok t r.f2e (by rw [a2]; exact h.fe)
  generalize hfe : (r.f2e.map fun x => (x.1, x.2.map (posOf t))) = fe at e1
  have hlen : fe.length = r.f2e.length := by rw [← hfe]; simp
  have hfst : fe.map Prod.fst = r.f2e.map Prod.fst := by rw [← hfe, List.map_map]; rfl
  obtain ⟨p2, q2⟩ := hs fe
  have hl2 : (srt fe).length = r.f2e.length := p2.length_eq.trans hlen
  have hperm2 : ((srt fe).map Prod.fst).Perm (List.range r.f2e.length) := by
    refine (p2.map Prod.fst).trans ?_
    rw [hfst]; exact h.f
  obtain ⟨t', b1, b2, b3, b4⟩ := fill_perm (.ub "conv_table[fe.first] out of range") (srt fe)
    (resize t (srt fe).length) (resize_length _ _) (by rw [hl2]; exact hperm2)
  rw [hl2] at b2 b3
  have e2 := withPoints_ok r.f2v (srt fe) (by
    intro x hx
    rw [h.fv]
    exact List.mem_range.1 (hperm2.mem_iff.1 (List.mem_map.2 ⟨x, hx, rfl⟩)))
  refine ⟨(srt r.edges).map Prod.snd, (srt fe).map fun x => (x.2, r.f2v.getD x.1 []), t, t', ?_, a2, b2, a3, b3, ?_, ?_, ?_, ?_, p1.map Prod.snd⟩
  · simp only [populateFaces, a1, Outcome.bind_ok, e1, e2, b1]
  · exact moved_sort hs r.edges (fun x => x.2) (posOf t) a4
  · obtain ⟨m1, m2⟩ := moved_sort hs fe (fun x => (x.2, r.f2v.getD x.1 [])) (posOf t') b4
    refine ⟨by rw [m1, hlen], fun i x hx => ?_⟩
    refine m2 i (x.map (posOf t)) ?_
    rw [← hfe]
    exact List.mem_map.2 ⟨(i, x), hx, rfl⟩
  · exact List.pairwise_map.2 q1
  · rw [List.map_map]
    exact List.pairwise_map.2 q2

theorem populate3_ok (badE : Outcome (List Nat)) {srt : List Entry → List Entry} (hs : IsSort srt) (r : Raw)
    (h : r.WF3) :
    ∃ L t t' τ, populate3 badE srt r = .ok (L, t, t') ∧ t.length = r.edges.length ∧
      t'.length = r.f2e.length ∧ PermBelow r.edges.length (posOf t) ∧ PermBelow r.f2e.length (posOf t') ∧
      PermBelow r.v2f.length τ ∧
      Moved (posOf t) (fun _ e => e) r.edges L.edges ∧
      Moved (posOf t') (fun i x => (x.map (posOf t), r.f2v.getD i [])) r.f2e L.faces ∧
      Moved τ (fun i x => (x.map (posOf t'), r.v2v.getD i [])) r.v2f L.vols ∧
      L.edges.Pairwise (fun a b => ¬ b < a) ∧ (L.faces.map Prod.fst).Pairwise (fun a b => ¬ b < a) ∧
      (L.vols.map Prod.fst).Pairwise (fun a b => ¬ b < a) ∧ L.edges.Perm (r.edges.map Prod.snd) := by
  obtain ⟨es, fs, t, t', h1, h2, h3, h4, h5, h6, h7, h8, h9, h10⟩ := populateFaces_ok badE hs r h.toWF
  have e1 := relinkAll_ok t' r.v2f (by rw [h3]; exact h.vf)
  generalize hfe : (r.v2f.map fun x => (x.1, x.2.map (posOf t'))) = fe at e1
  have hlen : fe.length = r.v2f.length := by rw [← hfe]; simp
  have hfst : fe.map Prod.fst = r.v2f.map Prod.fst := by rw [← hfe, List.map_map]; rfl
  obtain ⟨p2, q2⟩ := hs fe
  have hl2 : (srt fe).length = r.v2f.length := p2.length_eq.trans hlen
  have hperm2 : ((srt fe).map Prod.fst).Perm (List.range r.v2f.length) := by
    refine (p2.map Prod.fst).trans ?_
    rw [hfst]; exact h.v
  obtain ⟨s, b1, b2, b3, b4⟩ := fill_perm (.ub "") (srt fe)
    (resize t (srt fe).length) (resize_length _ _) (by rw [hl2]; exact hperm2)
  rw [hl2] at b2 b3
  have e2 := withPoints_ok r.v2v (srt fe) (by
    intro x hx
    rw [h.vv]
    exact List.mem_range.1 (hperm2.mem_iff.1 (List.mem_map.2 ⟨x, hx, rfl⟩)))
  refine ⟨⟨es, fs, (srt fe).map fun x => (x.2, r.v2v.getD x.1 [])⟩, t, t', posOf s, ?_, h2, h3, h4, h5, b3, h6, h7, ?_, h8, h9, ?_, h10⟩
  · simp only [populate3, h1, Outcome.bind_ok, e1, e2]
  · obtain ⟨m1, m2⟩ := moved_sort hs fe (fun x => (x.2, r.v2v.getD x.1 [])) (posOf s) b4
    refine ⟨by rw [m1, hlen], fun i x hx => ?_⟩
    refine m2 i (x.map (posOf t')) ?_
    rw [← hfe]
    exact List.mem_map.2 ⟨(i, x), hx, rfl⟩
  · simp only
    rw [List.map_map]
    exact List.pairwise_map.2 q2

theorem enumerate_fst (l : List (List Nat)) : (enumerate l).map Prod.fst = List.range l.length := by
  simp only [enumerate, List.map_map]
  apply List.ext_getElem
  · simp
  · intro i h1 h2; simp

theorem enumerate_length (l : List (List Nat)) : (enumerate l).length = l.length := by simp [enumerate]

theorem mem_enumerate (l : List (List Nat)) (i : Nat) (x : List Nat) : (i, x) ∈ enumerate l ↔ l[i]? = some x := by
  simp only [enumerate, List.mem_map, Prod.mk.injEq, Prod.exists]
  constructor
  · rintro ⟨a, b, h, rfl, rfl⟩
    exact List.mk_mem_zipIdx_iff_getElem?.1 h
  · intro h
    exact ⟨x, i, List.mk_mem_zipIdx_iff_getElem?.2 h, rfl, rfl⟩

/-! ### Groups -/

theorem permBelow_inj {n : Nat} {π : Nat → Nat} (h : PermBelow n π) {i j : Nat} (hi : i < n) (hj : j < n)
    (e : π i = π j) : i = j := by
  have hn : ((List.range n).map π).Nodup := h.nodup_iff.2 List.nodup_range
  exact List.inj_on_of_nodup_map hn (List.mem_range.2 hi) (List.mem_range.2 hj) e

theorem permBelow_lt {n : Nat} {π : Nat → Nat} (h : PermBelow n π) {i : Nat} (hi : i < n) : π i < n :=
  List.mem_range.1 (h.mem_iff.1 (List.mem_map.2 ⟨i, List.mem_range.2 hi, rfl⟩))

theorem mark_ok (bad : Outcome (List (Option Nat))) (t : List Nat) (n : Nat) (ht : t.length = n)
    (hp : PermBelow n (posOf t)) (g : Nat) (xs : List Nat) (hx : ∀ x ∈ xs, x < n) (b : List (Option Nat))
    (hb : b.length = n) :
    ∃ b', mark bad t g xs b = .ok b' ∧ b'.length = n ∧
      ∀ i, i < n → b'[posOf t i]? = if xs.contains i then some (some g) else b[posOf t i]? := by
  induction xs generalizing b with
  | nil => exact ⟨b, rfl, hb, by simp⟩
  | cons x xs ih =>
    have hxn := hx x List.mem_cons_self
    have ht' := List.getElem?_eq_getElem (show x < t.length by omega)
    have hpos : t[x] = posOf t x := by simp [posOf, List.getD_eq_getElem?_getD, ht']
    have hlt : posOf t x < n := permBelow_lt hp hxn
    obtain ⟨b', h1, h2, h3⟩ := ih (fun y hy => hx y (List.mem_cons_of_mem _ hy)) (b.set (posOf t x) (some g))
      (by rw [List.length_set, hb])
    refine ⟨b', ?_, h2, ?_⟩
    · rw [mark, ht']
      simp only [hpos]
      rw [if_pos (by omega)]; exact h1
    · intro i hi
      rw [h3 i hi]
      by_cases hix : i = x
      · subst hix
        simp only [List.contains_cons, BEq.rfl, Bool.true_or, if_true]
        split
        · rfl
        · rw [List.getElem?_set_self (by omega)]
      · have hne : posOf t x ≠ posOf t i := fun e => hix (permBelow_inj hp hi hxn e.symm)
        rw [List.getElem?_set_ne hne]
        simp [hix]

theorem markAll_ok (bad : Outcome (List (Option Nat))) (t : List Nat) (n : Nat) (ht : t.length = n)
    (hp : PermBelow n (posOf t)) (gs : List Entry) (hx : ∀ g ∈ gs, ∀ x ∈ g.2, x < n) (b : List (Option Nat))
    (hb : b.length = n) :
    ∃ b', markAll bad t gs b = .ok b' ∧ b'.length = n ∧
      ∀ i, i < n → b'[posOf t i]? = match lastGroup gs i with
        | some g => some (some g)
        | none => b[posOf t i]? := by
  induction gs generalizing b with
  | nil => exact ⟨b, rfl, hb, by simp [lastGroup]⟩
  | cons g gs ih =>
    obtain ⟨b1, h1, h2, h3⟩ := mark_ok bad t n ht hp g.1 g.2 (hx g List.mem_cons_self) b hb
    obtain ⟨b', e1, e2, e3⟩ := ih (fun g' hg' => hx g' (List.mem_cons_of_mem _ hg')) b1 h2
    refine ⟨b', ?_, e2, ?_⟩
    · rw [markAll, h1]; exact e1
    · intro i hi
      rw [e3 i hi, h3 i hi]
      have key : lastGroup (g :: gs) i = match lastGroup gs i with
          | some g' => some g'
          | none => if g.2.contains i then some g.1 else none := by
        simp only [lastGroup, List.filter_cons]
        generalize gs.filter (fun g => g.2.contains i) = l
        cases hl : l with
        | nil => split <;> simp
        | cons y ys =>
          split
          · rw [List.getLast?_cons_cons]
            cases h : (y :: ys).getLast? with
            | none => simp at h
            | some z => simp
          · cases h : (y :: ys).getLast? with
            | none => simp at h
            | some z => simp
      rw [key]
      cases lastGroup gs i with
      | some g' => rfl
      | none =>
        simp only
        split <;> rfl

end Verif.Renumber
