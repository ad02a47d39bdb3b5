import Verif.Lemmas.HexPieces
import Mathlib.Algebra.BigOperators.Intervals
import Mathlib.Data.List.Count
/-! Lemmas for C27 and C28: counting, the owners of the edges, sorting. -/
namespace Verif.HexMesh
open Spec.HexMesh

/-- Tiles with their pieces. -/
def placed (l : Nat) : List ((Nat × Nat) × Piece) :=
  (tilesIn l 0 0).flatMap fun t => (pieces (2 ^ l) t).map fun p => (t, p)

theorem mem_tiles (l : Nat) (t : Nat × Nat) : t ∈ tilesIn l 0 0 ↔ t.1 < 2 ^ l ∧ t.2 < 2 ^ l := by
  rw [mem_tilesIn]; omega

theorem mem_placed (l : Nat) (t : Nat × Nat) (p : Piece) : (t, p) ∈ placed l ↔ p.ok (2 ^ l) t := by
  simp only [placed, List.mem_flatMap, List.mem_map, Prod.mk.injEq, mem_tiles, mem_pieces]
  constructor
  · rintro ⟨t', _, p', h, rfl, rfl⟩; exact h
  · intro h
    exact ⟨t, ⟨Cond.lt h.1, Cond.lt h.2⟩, p, h, rfl, rfl⟩

theorem placed_nodup (l : Nat) : (placed l).Nodup := by
  unfold placed
  rw [List.nodup_flatMap]
  refine ⟨fun t _ => (Piece.all_nodup.filter _).map fun a b h => by simpa using h, ?_⟩
  refine (tilesIn_nodup l 0 0).imp ?_
  intro a b hab
  simp only [Function.onFun]
  intro t ht ht'
  obtain ⟨x, _, rfl⟩ := List.mem_map.1 ht
  obtain ⟨x', _, e⟩ := List.mem_map.1 ht'
  simp only [Prod.mk.injEq] at e
  exact hab e.1.symm

theorem raw_polys (l : Nat) : (raw l).polys = (placed l).map fun x => place x.1 x.2 := by
  simp only [raw, addTiles, updateGeometry, List.nil_append, placed, List.map_flatMap, List.map_map]
  refine List.flatMap_congr fun t ht => ?_
  rw [tilePolys_eq _ _ ((mem_tiles l t).1 ht)]
  rfl

theorem raw_sides_nodup (l : Nat) : ((raw l).polys.flatMap ring).Nodup := by
  rw [raw_polys, List.flatMap_map, List.nodup_flatMap]
  refine ⟨fun x hx => ?_, ?_⟩
  · rw [ring_place]
    refine (ring_nodup x.2 (Piece.mem_all _)).map ?_
    intro a b h
    simp only [move, shift, Prod.mk.injEq] at h
    exact Prod.ext (Prod.ext (by omega) (by omega)) (Prod.ext (by omega) (by omega))
  · refine (placed_nodup l).pairwise_of_forall_ne ?_
    intro a ha b hb hab
    simp only [Function.onFun]
    intro s hs hs'
    obtain ⟨h1, h2⟩ := side_unique ((mem_placed l _ _).1 ha) ((mem_placed l _ _).1 hb) hs hs'
    exact hab (Prod.ext h1 h2)

theorem mem_raw_sides (l : Nat) (s : Pt × Pt) :
    s ∈ (raw l).polys.flatMap ring ↔ ∃ t p, p.ok (2 ^ l) t ∧ s ∈ ring (place t p) := by
  rw [raw_polys]
  simp only [List.mem_flatMap, List.mem_map]
  constructor
  · rintro ⟨P, ⟨x, h, rfl⟩, hs⟩
    exact ⟨x.1, x.2, (mem_placed l _ _).1 h, hs⟩
  · rintro ⟨t, p, h, hs⟩
    exact ⟨_, ⟨(t, p), (mem_placed l _ _).2 h, rfl⟩, hs⟩

/-! ### Edges -/

theorem ptLt_iff (p q : Pt) : ptLt p q = true ↔ p.1 < q.1 ∨ (p.1 = q.1 ∧ p.2 < q.2) := by
  simp [ptLt]

theorem ptLt_asymm {p q : Pt} (h : ptLt p q = true) : ptLt q p = false := by
  rw [← Bool.not_eq_true, ptLt_iff]
  rw [ptLt_iff] at h
  omega

theorem ptLt_total {p q : Pt} (h : ptLt p q = false) (hne : p ≠ q) : ptLt q p = true := by
  rw [← Bool.not_eq_true, ptLt_iff] at h
  rw [ptLt_iff]
  by_contra hc
  exact hne (Prod.ext (by omega) (by omega))

theorem mkEdge_cases (s : Pt × Pt) : mkEdge s.1 s.2 = s ∨ mkEdge s.1 s.2 = rev s := by
  unfold mkEdge
  split
  · right; rfl
  · left; rfl

theorem mkEdge_comm {a b : Pt} : mkEdge a b = mkEdge b a := by
  by_cases h : a = b
  · rw [h]
  · unfold mkEdge
    by_cases h1 : ptLt b a = true
    · rw [if_pos h1, if_neg (by rw [ptLt_asymm h1]; simp)]
    · rw [if_neg h1, if_pos (ptLt_total (by simpa using h1) (Ne.symm h))]

theorem mkEdge_eq_iff (a b : Pt) (s : Pt × Pt) : mkEdge s.1 s.2 = mkEdge a b ↔ s = (a, b) ∨ s = (b, a) := by
  constructor
  · intro h
    rcases mkEdge_cases s with h1 | h1 <;> rcases mkEdge_cases (a, b) with h2 | h2 <;> rw [h1] at h <;>
      simp only at h2 <;> rw [h2] at h
    · exact Or.inl h
    · exact Or.inr h
    · right
      have : rev (rev s) = rev (a, b) := by rw [h]
      exact this
    · left
      have : rev (rev s) = rev (rev (a, b)) := by rw [h]
      exact this
  · rintro (rfl | rfl)
    · rfl
    · exact mkEdge_comm

/-- Edges of a list of polygons, with repetition. -/
def edgesOf (ps : List Poly) : List Edge := ps.flatMap fun p => (sides p).map fun s => mkEdge s.1 s.2

theorem edgesOf_eq (ps : List Poly) : edgesOf ps = (ps.flatMap ring).map fun s => mkEdge s.1 s.2 := by
  simp only [edgesOf, sides_eq, List.map_flatMap]

theorem count_edges (ps : List Poly) (a b : Pt) : (edgesOf ps).count (mkEdge a b) = uses ps a b := by
  rw [edgesOf_eq, List.count_eq_countP, List.countP_map, uses]
  refine List.countP_congr ?_
  intro s _
  simp only [Function.comp, beq_iff_eq, Bool.or_eq_true, decide_eq_true_eq]
  exact mkEdge_eq_iff a b s

theorem uses_eq (ps : List Poly) {a b : Pt} (h : a ≠ b) :
    uses ps a b = (ps.flatMap ring).count (a, b) + (ps.flatMap ring).count (b, a) := by
  unfold uses
  generalize ps.flatMap ring = S
  induction S with
  | nil => rfl
  | cons s S ih =>
    rw [List.countP_cons, List.count_cons, List.count_cons, ih]
    by_cases h1 : s = (a, b)
    · subst h1
      have : ((a, b) == (b, a)) = false := by
        rw [beq_eq_false_iff_ne]
        intro e
        exact h (Prod.mk.inj e).1
      simp [this]; omega
    · by_cases h2 : s = (b, a)
      · subst h2
        have : ((b, a) == (a, b)) = false := by
          rw [beq_eq_false_iff_ne]
          intro e
          exact h (Prod.mk.inj e).2
        simp [this]; omega
      · simp [h1, h2]

/-- How often each directed side occurs. -/
theorem count_side (l : Nat) (s : Pt × Pt) : ((raw l).polys.flatMap ring).count s ≤ 1 :=
  (List.nodup_iff_count_le_one.1 (raw_sides_nodup l)) s

/-- No side goes from a point to itself. -/
theorem side_proper (l : Nat) {s : Pt × Pt} (hs : s ∈ (raw l).polys.flatMap ring) : s.1 ≠ s.2 := by
  obtain ⟨t, p, -, h⟩ := (mem_raw_sides l s).1 hs
  rw [ring_place] at h
  obtain ⟨r, hr, rfl⟩ := List.mem_map.1 h
  have := (pts_le p (Piece.mem_all p) r hr).2.2.2.2
  intro e
  simp only [move, shift, Prod.mk.injEq] at e
  exact this (Prod.ext (by omega) (by omega))

theorem uses_self (l : Nat) (a : Pt) : uses (raw l).polys a a = 0 := by
  unfold uses
  rw [List.countP_eq_zero]
  intro s hs h
  simp only [Bool.or_self, decide_eq_true_eq] at h
  subst h
  exact side_proper l hs rfl

/-- The boundary lists. -/
theorem mem_raw_bnd (l : Nat) (sd : Side) (e : Edge) :
    e ∈ (raw l).bnd sd ↔ ∃ s, OnBnd (2 ^ l) sd s ∧ e = mkEdge s.1 s.2 := by
  have hE : ∀ (t : Nat × Nat) (s : Pt × Pt), mkEdge (move t s).1 (move t s).2 = move t (mkEdge s.1 s.2) := by
    intro t s
    have : ptLt (move t s).2 (move t s).1 = ptLt s.2 s.1 := by
      rw [Bool.eq_iff_iff, ptLt_iff, ptLt_iff]
      simp only [move, shift]; omega
    unfold mkEdge
    rw [this]
    split <;> rfl
  have key : ∀ (t : Nat × Nat), t.1 < 2 ^ l → t.2 < 2 ^ l → ∀ e, e ∈ tileBnd (2 ^ l) t sd ↔
      ∃ b ∈ bsides, b.1 = sd ∧ b.2.2.1.ok (2 ^ l) t.1 ∧ b.2.2.2.ok (2 ^ l) t.2 ∧ e = mkEdge (move t b.2.1).1 (move t b.2.1).2 := by
    intro t hx hy e
    have fin : ∀ (sd : Side) (fx lx fy ly : Bool), localBnd fy ly fx lx sd =
        ((bsides.filter fun b => b.1 = sd && b.2.2.1.flag fx lx && b.2.2.2.flag fy ly).map fun b => mkEdge b.2.1.1 b.2.1.2) := by
      intro sd
      cases sd <;> decide
    rw [tileBnd, fin]
    simp only [List.map_map, List.mem_map, List.mem_filter, Bool.and_eq_true, decide_eq_true_eq, beq_eq_decide]
    constructor
    · rintro ⟨b, ⟨hb, ⟨h1, h2⟩, h3⟩, rfl⟩
      refine ⟨b, hb, h1, (flag_iff hx _).2 h2, (flag_iff hy _).2 h3, ?_⟩
      rw [hE]; rfl
    · rintro ⟨b, hb, h1, h2, h3, rfl⟩
      refine ⟨b, ⟨hb, ⟨h1, (flag_iff hx _).1 h2⟩, (flag_iff hy _).1 h3⟩, ?_⟩
      rw [hE]; rfl
  simp only [raw, addTiles, updateGeometry, List.nil_append, List.mem_flatMap]
  constructor
  · rintro ⟨t, ht, he⟩
    obtain ⟨h1, h2⟩ := (mem_tiles l t).1 ht
    obtain ⟨b, hb, hs, hx, hy, rfl⟩ := (key t h1 h2 e).1 he
    exact ⟨_, ⟨t, b, hb, hs, hx, hy, rfl⟩, rfl⟩
  · rintro ⟨s, ⟨t, b, hb, hs, hx, hy, rfl⟩, rfl⟩
    have h1 := Cond.lt hx
    have h2 := Cond.lt hy
    exact ⟨t, (mem_tiles l t).2 ⟨h1, h2⟩, (key t h1 h2 _).2 ⟨b, hb, hs, hx, hy, rfl⟩⟩

/-- Boundary edges are the edges used once. -/
theorem bnd_iff_once (l : Nat) (a b : Pt) :
    (∃ sd, mkEdge a b ∈ (raw l).bnd sd) ↔ uses (raw l).polys a b = 1 := by
  by_cases hab : a = b
  · subst hab
    rw [uses_self]
    constructor
    · rintro ⟨sd, h⟩
      obtain ⟨s, hs, e⟩ := (mem_raw_bnd l sd _).1 h
      obtain ⟨t, p, hp, hm⟩ := bnd_owned hs
      have := side_proper l ((mem_raw_sides l s).2 ⟨t, p, hp, hm⟩)
      rcases (mkEdge_eq_iff a a s).1 e.symm with rfl | rfl <;> exact absurd rfl this
    · intro h; omega
  rw [uses_eq _ hab]
  have hmem : ∀ s, ((raw l).polys.flatMap ring).count s = if s ∈ (raw l).polys.flatMap ring then 1 else 0 := by
    intro s
    split
    · rename_i h
      have := List.count_pos_iff.2 h
      have := count_side l s
      omega
    · rename_i h
      exact List.count_eq_zero.2 h
  have one : ∀ s : Pt × Pt, (∃ sd, OnBnd (2 ^ l) sd s) ↔ s ∈ (raw l).polys.flatMap ring ∧ rev s ∉ (raw l).polys.flatMap ring := by
    intro s
    constructor
    · rintro ⟨sd, h⟩
      refine ⟨(mem_raw_sides l s).2 (bnd_owned h), fun hr => ?_⟩
      obtain ⟨t, p, hp, hm⟩ := (mem_raw_sides l _).1 hr
      exact bnd_alone h hp hm
    · rintro ⟨h1, h2⟩
      obtain ⟨t, p, hp, hm⟩ := (mem_raw_sides l s).1 h1
      rcases opposite hp hm with h | ⟨t', q, hq, hr⟩
      · exact h
      · exact absurd ((mem_raw_sides l _).2 ⟨t', q, hq, hr⟩) h2
  have lhs : (∃ sd, mkEdge a b ∈ (raw l).bnd sd) ↔ (∃ sd, OnBnd (2 ^ l) sd (a, b)) ∨ ∃ sd, OnBnd (2 ^ l) sd (b, a) := by
    constructor
    · rintro ⟨sd, h⟩
      obtain ⟨s, hs, e⟩ := (mem_raw_bnd l sd _).1 h
      rcases (mkEdge_eq_iff a b s).1 e.symm with rfl | rfl
      · exact Or.inl ⟨sd, hs⟩
      · exact Or.inr ⟨sd, hs⟩
    · rintro (⟨sd, h⟩ | ⟨sd, h⟩)
      · exact ⟨sd, (mem_raw_bnd l sd _).2 ⟨_, h, rfl⟩⟩
      · exact ⟨sd, (mem_raw_bnd l sd _).2 ⟨_, h, mkEdge_comm⟩⟩
  rw [lhs, one, one, hmem, hmem]
  simp only [rev]
  by_cases h1 : (a, b) ∈ (raw l).polys.flatMap ring <;> by_cases h2 : (b, a) ∈ (raw l).polys.flatMap ring <;>
    simp [h1, h2]

/-! ### The owner loop -/

/-- The owners recorded for an edge. -/
def recorded (x : Option Nat × Option Nat) : List Nat := x.1.toList ++ x.2.toList

/-- Second owners only after first ones. -/
def OwnWF (o : Owners) : Prop := ∀ e, (o e).1 = none → (o e).2 = none

theorem addOwner_ok (o : Owners) (hw : OwnWF o) (e : Edge) (k : Nat) (h : (recorded (o e)).length ≤ 1) :
    ∃ o', addOwner o e k = .ok o' ∧ OwnWF o' ∧
      ∀ e', recorded (o' e') = recorded (o e') ++ if e' = e then [k] else [] := by
  unfold addOwner
  have hwe := hw e
  generalize hx : o e = x at *
  obtain ⟨x1, x2⟩ := x
  cases x1 with
  | none =>
    simp only at hwe
    have hx2 := hwe trivial
    subst hx2
    refine ⟨_, rfl, ?_, ?_⟩
    · intro e' h'
      by_cases he : e' = e
      · simp [he] at h'
      · simp only [if_neg he] at h' ⊢
        exact hw e' h'
    · intro e'
      by_cases he : e' = e
      · simp [he, hx, recorded]
      · simp [he]
  | some a =>
    cases x2 with
    | none =>
      refine ⟨_, rfl, ?_, ?_⟩
      · intro e' h'
        by_cases he : e' = e
        · simp [he] at h'
        · simp only [if_neg he] at h' ⊢
          exact hw e' h'
      · intro e'
        by_cases he : e' = e
        · simp [he, hx, recorded]
        · simp [he]
    | some b => simp [recorded] at h

theorem addOwners_ok (k : Nat) (ss : List (Pt × Pt)) (o : Owners) (hw : OwnWF o)
    (h : ∀ e, (recorded (o e)).length + (ss.map fun s => mkEdge s.1 s.2).count e ≤ 2) :
    ∃ o', addOwners k ss o = .ok o' ∧ OwnWF o' ∧
      ∀ e, recorded (o' e) = recorded (o e) ++ List.replicate ((ss.map fun s => mkEdge s.1 s.2).count e) k := by
  induction ss generalizing o with
  | nil => exact ⟨o, rfl, hw, by simp⟩
  | cons s ss ih =>
    simp only [List.map_cons, List.count_cons] at h
    obtain ⟨o1, h1, h2, h3⟩ := addOwner_ok o hw (mkEdge s.1 s.2) k (by
      have := h (mkEdge s.1 s.2)
      simp only [BEq.rfl, if_true] at this
      omega)
    obtain ⟨o', e1, e2, e3⟩ := ih o1 h2 (by
      intro e
      have := h e
      rw [h3 e, List.length_append]
      by_cases he : e = mkEdge s.1 s.2
      · subst he
        simp only [BEq.rfl, if_true] at this
        simp only [if_true, List.length_singleton]; omega
      · rw [if_neg he]
        simp only [List.length_nil]; omega)
    refine ⟨o', ?_, e2, ?_⟩
    · rw [addOwners, h1]; exact e1
    · intro e
      rw [e3 e, h3 e, List.append_assoc]
      congr 1
      rw [List.map_cons, List.count_cons]
      by_cases he : e = mkEdge s.1 s.2
      · subst he
        simp only [if_true, BEq.rfl, List.replicate_succ, List.singleton_append]
      · have : (mkEdge s.1 s.2 == e) = false := beq_eq_false_iff_ne.2 (Ne.symm he)
        simp [he, this]

/-- Positions of the polygons that have an edge. -/
def ownersList (k : Nat) (ps : List Poly) (e : Edge) : List Nat :=
  (ps.zipIdx k).flatMap fun x => List.replicate (((sides x.1).map fun s => mkEdge s.1 s.2).count e) x.2

theorem ownersList_length (k : Nat) (ps : List Poly) (e : Edge) : (ownersList k ps e).length = (edgesOf ps).count e := by
  induction ps generalizing k with
  | nil => rfl
  | cons p ps ih =>
    have := ih (k + 1)
    simp only [ownersList, edgesOf, List.zipIdx_cons, List.flatMap_cons, List.length_append, List.length_replicate,
      List.count_append] at this ⊢
    rw [this]

theorem ownersFrom_ok (ps : List Poly) (k : Nat) (o : Owners) (hw : OwnWF o)
    (h : ∀ e, (recorded (o e)).length + (edgesOf ps).count e ≤ 2) :
    ∃ o', ownersFrom k ps o = .ok o' ∧ OwnWF o' ∧ ∀ e, recorded (o' e) = recorded (o e) ++ ownersList k ps e := by
  induction ps generalizing k o with
  | nil => exact ⟨o, rfl, hw, by simp [ownersList]⟩
  | cons p ps ih =>
    have hc : ∀ e, (edgesOf (p :: ps)).count e = ((sides p).map fun s => mkEdge s.1 s.2).count e + (edgesOf ps).count e := by
      intro e; simp [edgesOf, List.count_append]
    obtain ⟨o1, h1, h2, h3⟩ := addOwners_ok k (sides p) o hw (by
      intro e; have := h e; rw [hc] at this; omega)
    obtain ⟨o', e1, e2, e3⟩ := ih (k + 1) o1 h2 (by
      intro e
      have := h e
      rw [hc] at this
      rw [h3 e, List.length_append, List.length_replicate]; omega)
    refine ⟨o', ?_, e2, ?_⟩
    · rw [ownersFrom, h1]; exact e1
    · intro e
      rw [e3 e, h3 e, List.append_assoc]
      simp [ownersList]

/-! ### Sorting -/

theorem mem_unique {α : Type} [DecidableEq α] (l : List α) (x : α) : x ∈ unique l ↔ x ∈ l := by
  induction l with
  | nil => simp [unique]
  | cons a l ih =>
    cases l with
    | nil => simp [unique]
    | cons b l =>
      rw [unique]
      split
      · rename_i h
        subst h
        rw [ih]; simp
      · simp only [List.mem_cons] at ih ⊢
        rw [ih]

theorem unique_strict {α : Type} [DecidableEq α] (lt : α → α → Bool) (htot : ∀ a b, lt a b = false → a ≠ b → lt b a = true)
    (htr : ∀ a b c, lt a b = true → lt b c = true → lt a c = true)
    (l : List α) (h : l.Pairwise fun a b => lt b a = false) : (unique l).Pairwise fun a b => lt a b = true := by
  induction l with
  | nil => simp [unique]
  | cons a l ih =>
    cases l with
    | nil => simp [unique]
    | cons b l =>
      have h2 := (List.pairwise_cons.1 h).2
      rw [unique]
      split
      · exact ih h2
      · rename_i hne
        refine List.pairwise_cons.2 ⟨?_, ih h2⟩
        intro x hx
        have hab : lt a b = true := by
          have := (List.pairwise_cons.1 h).1 b List.mem_cons_self
          exact htot b a this (Ne.symm hne)
        rw [mem_unique] at hx
        by_cases hxb : x = b
        · rw [hxb]; exact hab
        · have hx' : x ∈ l := by simpa [hxb] using hx
          have := (List.pairwise_cons.1 h2).1 x hx'
          exact htr a b x hab (htot x b this hxb)

theorem edgeLt_iff (e f : Edge) : edgeLt e f = true ↔ ptLt e.1 f.1 = true ∨ (e.1 = f.1 ∧ ptLt e.2 f.2 = true) := by
  simp [edgeLt]

theorem ptLt_trans {p q r : Pt} (h1 : ptLt p q = true) (h2 : ptLt q r = true) : ptLt p r = true := by
  rw [ptLt_iff] at *; omega

theorem edgeLt_total {e f : Edge} (h : edgeLt e f = false) (hne : e ≠ f) : edgeLt f e = true := by
  rw [← Bool.not_eq_true, edgeLt_iff, not_or] at h
  rw [edgeLt_iff]
  by_cases h1 : e.1 = f.1
  · right
    refine ⟨h1.symm, ptLt_total ?_ fun h2 => hne (Prod.ext h1 h2)⟩
    have := h.2
    simp only [h1, true_and] at this
    simpa using this
  · left
    exact ptLt_total (by simpa using h.1) h1

theorem edgeLt_trans {e f g : Edge} (h1 : edgeLt e f = true) (h2 : edgeLt f g = true) : edgeLt e g = true := by
  rw [edgeLt_iff] at *
  rcases h1 with h1 | ⟨h1, h1'⟩ <;> rcases h2 with h2 | ⟨h2, h2'⟩
  · exact Or.inl (ptLt_trans h1 h2)
  · exact Or.inl (h2 ▸ h1)
  · exact Or.inl (h1 ▸ h2)
  · exact Or.inr ⟨h1.trans h2, ptLt_trans h1' h2'⟩

theorem edgeLt_asymm {e f : Edge} (h : edgeLt e f = true) : edgeLt f e = false := by
  by_contra hc
  have h' : edgeLt f e = true := by simpa using hc
  have := edgeLt_trans h h'
  rw [edgeLt_iff] at this
  rcases this with h | ⟨-, h⟩
  · have := ptLt_asymm h; simp [h] at this
  · have := ptLt_asymm h; simp [h] at this

theorem neg_trans {α : Type} (lt : α → α → Bool) (htot : ∀ a b, lt a b = false → a ≠ b → lt b a = true)
    (htr : ∀ a b c, lt a b = true → lt b c = true → lt a c = true) (has : ∀ a b, lt a b = true → lt b a = false) :
    ∀ a b c, lt b a = false → lt c b = false → lt c a = false := by
  classical
  intro a b c h1 h2
  by_cases hab : b = a
  · rw [← hab]; exact h2
  · by_cases hbc : c = b
    · rw [hbc]; exact h1
    · exact has _ _ (htr a b c (htot b a h1 hab) (htot c b h2 hbc))

end Verif.HexMesh
