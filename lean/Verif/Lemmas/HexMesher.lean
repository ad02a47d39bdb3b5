import Verif.Model.HexMesher
import Verif.Lemmas.HexMake
import Verif.Lemmas.Lookup
import Mathlib.Data.List.Lex
/-! Lemmas for C77: lookups in the generated containers. -/
namespace Verif.HexMesher
open Verif.HexMesh Spec.HexMesh

theorem lowerBound_at {α : Type} (lt : α → α → Bool) (has : ∀ a b, lt a b = true → lt b a = false)
    (htr : ∀ a b c, lt a b = true → lt b c = true → lt a c = true) (v : List α) (hs : v.Pairwise fun a b => lt a b = true)
    (x : α) (i : Nat) (hi : v[i]? = some x) : lowerBound lt v x = i := by
  have hil : i < v.length := (List.getElem?_eq_some_iff.1 hi).1
  have hxi : v[i] = x := (List.getElem?_eq_some_iff.1 hi).2
  have hp := List.pairwise_iff_getElem.1 hs
  have hirr : ∀ a, lt a a = false := by
    intro a
    by_contra h
    have h' : lt a a = true := by simpa using h
    have := has a a h'
    simp [h'] at this
  have hval : ∀ j (hj : j < v.length), (match v[j]? with | some y => lt y x | none => false) = lt v[j] x := by
    intro j hj; simp [hj]
  obtain ⟨h1, h2, h3, h4⟩ := Lookup.lowerBoundLoop_spec (fun i => match v[i]? with | some y => lt y x | none => false) 0 v.length (by
    intro a b _ hab hb hpb
    have hb' : b < v.length := by omega
    rw [hval b hb'] at hpb
    rw [hval a (by omega)]
    rcases Nat.lt_or_eq_of_le hab with h | h
    · exact htr _ _ _ (hp a b (by omega) hb' h) hpb
    · subst h; exact hpb)
  unfold lowerBound
  set L := Lookup.lowerBoundLoop (fun i => match v[i]? with | some y => lt y x | none => false) 0 v.length with hL
  rcases Nat.lt_trichotomy L i with h | h | h
  · have := h4 L (Nat.le_refl _) (by omega)
    have hLl : L < v.length := Nat.lt_trans h hil
    rw [hval L hLl] at this
    have h5 := hp L i hLl hil h
    rw [hxi, this] at h5
    cases h5
  · exact h
  · have := h3 i (by omega) h
    rw [hval i hil, hxi, hirr] at this
    cases this

theorem offset_ok (pts : List Pt) (hs : pts.Pairwise fun a b => ptLt a b = true) (q : Pt) (hq : q ∈ pts) :
    offset pts q = .ok (pts.idxOf q) := by
  have h := List.getElem?_idxOf hq
  unfold offset
  simp only [lowerBound_at ptLt (fun _ _ => ptLt_asymm) (fun _ _ _ => ptLt_trans) pts hs q _ h, h, if_true]

theorem idx_lt {α : Type} [BEq α] [LawfulBEq α] (lt : α → α → Bool) (has : ∀ a b, lt a b = true → lt b a = false) (v : List α)
    (hs : v.Pairwise fun a b => lt a b = true) {a b : α} (ha : a ∈ v) (hb : b ∈ v) (h : lt a b = true) :
    v.idxOf a < v.idxOf b := by
  have ia := List.idxOf_lt_length_of_mem ha
  have ib := List.idxOf_lt_length_of_mem hb
  have ea : v[v.idxOf a] = a := List.getElem_idxOf ia
  have eb : v[v.idxOf b] = b := List.getElem_idxOf ib
  have hp := List.pairwise_iff_getElem.1 hs
  rcases Nat.lt_trichotomy (v.idxOf a) (v.idxOf b) with h' | h' | h'
  · exact h'
  · have : a = b := by rw [← ea, ← eb]; simp only [h']
    subst this
    have := has _ _ h
    simp [h] at this
  · have := hp _ _ ib ia h'
    rw [ea, eb] at this
    have := has _ _ h
    simp_all

theorem transform_ok {α β : Type} (f : α → Outcome β) (g : α → β) (l : List α) (h : ∀ a ∈ l, f a = .ok (g a)) :
    transform f l = .ok (l.map g) := by
  induction l with
  | nil => rfl
  | cons a l ih =>
    rw [transform, h a (by simp), ih fun b hb => h b (List.mem_cons_of_mem _ hb)]
    rfl

/-- The stored edge of a lattice edge. -/
def gOf (pts : List Pt) (e : Edge) : GEdge := ⟨(pts.idxOf e.1, pts.idxOf e.2), (pts.idxOf e.1, pts.idxOf e.2)⟩

theorem edgeTransform_ok (pts : List Pt) (hs : pts.Pairwise fun a b => ptLt a b = true) (e : Edge) (h1 : e.1 ∈ pts) (h2 : e.2 ∈ pts)
    (h : ptLt e.1 e.2 = true) : edgeTransform pts e = .ok (gOf pts e) := by
  have hlt := idx_lt ptLt (fun _ _ => ptLt_asymm) pts hs h1 h2 h
  simp only [edgeTransform, offset_ok pts hs _ h1, offset_ok pts hs _ h2, Outcome.bind_ok, if_neg (Nat.ne_of_lt hlt), mkGEdge,
    if_pos hlt, gOf]

theorem gOf_lt (pts : List Pt) (hs : pts.Pairwise fun a b => ptLt a b = true) (e f : Edge) (h1 : e.1 ∈ pts) (h2 : e.2 ∈ pts)
    (h1' : f.1 ∈ pts) (h2' : f.2 ∈ pts) (h : edgeLt e f = true) : gedgeLt (gOf pts e) (gOf pts f) = true := by
  rw [gedgeLt, ptLt_iff]
  simp only [gOf]
  rcases (edgeLt_iff e f).1 h with h | ⟨h, h'⟩
  · exact Or.inl (idx_lt ptLt (fun _ _ => ptLt_asymm) pts hs h1 h1' h)
  · exact Or.inr ⟨by rw [h], idx_lt ptLt (fun _ _ => ptLt_asymm) pts hs h2 h2' h'⟩

theorem gedgeLt_asymm {e f : GEdge} (h : gedgeLt e f = true) : gedgeLt f e = false := ptLt_asymm h
theorem gedgeLt_trans {e f g : GEdge} (h : gedgeLt e f = true) (h' : gedgeLt f g = true) : gedgeLt e g = true := ptLt_trans h h'

theorem gedgeLt_irrefl (e : GEdge) : gedgeLt e e = false := by
  by_contra h
  have h' : gedgeLt e e = true := by simpa using h
  have := gedgeLt_asymm h'
  simp [h'] at this

theorem findEdge_ok (es : List GEdge) (hs : es.Pairwise fun a b => gedgeLt a b = true) (i : Nat) (g : GEdge) (h : es[i]? = some g) :
    findEdge es g = .ok i := by
  simp [findEdge, lowerBound_at gedgeLt (fun _ _ => gedgeLt_asymm) (fun _ _ _ => gedgeLt_trans) es hs g i h, h, gedgeLt_irrefl]

theorem idxOf_map {α β : Type} [BEq α] [LawfulBEq α] (v : List α) (g : α → β) {a : α} (ha : a ∈ v) :
    (v.map g)[v.idxOf a]? = some (g a) := by
  rw [List.getElem?_map, List.getElem?_idxOf ha]; rfl

section
variable {pts : List Pt} {es : List Edge} (hs : pts.Pairwise fun a b => ptLt a b = true)
  (hes : es.Pairwise fun a b => edgeLt a b = true)
  (hmem : ∀ e ∈ es, e.1 ∈ pts ∧ e.2 ∈ pts ∧ ptLt e.1 e.2 = true)
include hs hes hmem

theorem edges_sorted : (es.map (gOf pts)).Pairwise fun a b => gedgeLt a b = true := by
  rw [List.pairwise_map]
  refine hes.imp_of_mem ?_
  intro a b ha hb hab
  exact gOf_lt pts hs a b (hmem a ha).1 (hmem a ha).2.1 (hmem b hb).1 (hmem b hb).2.1 hab

theorem transform_edges : (transform (edgeTransform pts) es) = .ok (es.map (gOf pts)) :=
  transform_ok _ _ _ fun e he => edgeTransform_ok pts hs e (hmem e he).1 (hmem e he).2.1 (hmem e he).2.2

theorem find_edge {e : Edge} (he : e ∈ es) : findEdge (es.map (gOf pts)) (gOf pts e) = .ok (es.idxOf e) :=
  findEdge_ok _ (edges_sorted hs hes hmem) _ _ (idxOf_map es (gOf pts) he)

theorem surface_ok (p : Poly) (hp : ∀ s ∈ ring p, mkEdge s.1 s.2 ∈ es ∧ s.1 ∈ pts) :
    surface pts (es.map (gOf pts)) p = .ok ⟨(ring p).map fun s => es.idxOf (mkEdge s.1 s.2), p.map fun q => pts.idxOf q⟩ := by
  rw [surface, transform_ok _ (fun s : Pt × Pt => (es.idxOf (mkEdge s.1 s.2), pts.idxOf s.1)), Outcome.bind_ok]
  · have : (ring p).map Prod.fst = p := by
      rw [ring, List.map_fst_zip]
      cases p <;> simp
    simp only [sides_eq, List.map_map, Outcome.ok.injEq, Surf.mk.injEq]
    refine ⟨rfl, ?_⟩
    conv_rhs => rw [← this]
    rw [List.map_map]; rfl
  · intro s hsd
    rw [sides_eq] at hsd
    obtain ⟨h1, h2⟩ := hp s hsd
    obtain ⟨a, b, c⟩ := hmem _ h1
    rw [edgeTransform_ok pts hs _ a b c, Outcome.bind_ok, find_edge hs hes hmem h1, Outcome.bind_ok, offset_ok pts hs _ h2]
    rfl

theorem markSide_ok (id : Nat) (l : List Edge) (hl : ∀ e ∈ l, e ∈ es) (info : List Info) (hinfo : info.length = es.length) :
    ∃ info', markSide pts (es.map (gOf pts)) id l info = .ok info' ∧ info'.length = es.length ∧
      ∀ e ∈ es, info'[es.idxOf e]? = if e ∈ l then some (some id) else info[es.idxOf e]? := by
  induction l generalizing info with
  | nil => exact ⟨info, rfl, hinfo, by simp⟩
  | cons e l ih =>
    have he := hl e (by simp)
    obtain ⟨a, b, c⟩ := hmem e he
    obtain ⟨info', h1, h2, h3⟩ := ih (fun x hx => hl x (List.mem_cons_of_mem _ hx)) (info.set (es.idxOf e) (some id)) (by simpa using hinfo)
    refine ⟨info', ?_, h2, ?_⟩
    · rw [markSide, edgeTransform_ok pts hs e a b c, Outcome.bind_ok, find_edge hs hes hmem he, Outcome.bind_ok,
        if_pos (by rw [hinfo]; exact List.idxOf_lt_length_of_mem he), h1]
    · intro f hf
      rw [h3 f hf, List.getElem?_set]
      by_cases hfl : f ∈ l
      · simp [hfl]
      · by_cases hfe : f = e
        · subst hfe
          simp only [hfl, if_false, if_true, List.mem_cons, or_false]
          rw [if_pos (by rw [hinfo]; exact List.idxOf_lt_length_of_mem he)]
        · have : es.idxOf e ≠ es.idxOf f := by
            intro h
            have h1 := List.getElem?_idxOf he
            have h2 := List.getElem?_idxOf hf
            rw [h, h2] at h1
            exact hfe (Option.some.inj h1)
          simp [hfl, hfe, this]

theorem markAll_ok (bnd : Side → List Edge) (ss : List Side) (hb : ∀ s, ∀ e ∈ bnd s, e ∈ es) (info : List Info) (hinfo : info.length = es.length) :
    ∃ info', markAll pts (es.map (gOf pts)) bnd ss info = .ok info' ∧ info'.length = es.length ∧
      ∀ e ∈ es, ((∀ s ∈ ss, e ∉ bnd s) → info'[es.idxOf e]? = info[es.idxOf e]?) ∧
        ∀ s ∈ ss, e ∈ bnd s → (∀ s', e ∈ bnd s' → s' = s) → info'[es.idxOf e]? = some (some (sideId s)) := by
  induction ss generalizing info with
  | nil => exact ⟨info, rfl, hinfo, by simp⟩
  | cons s0 ss ih =>
    obtain ⟨info1, a1, a2, a3⟩ := markSide_ok hs hes hmem (sideId s0) (bnd s0) (hb s0) info hinfo
    obtain ⟨info2, b1, b2, b3⟩ := ih info1 a2
    refine ⟨info2, by rw [markAll, a1, Outcome.bind_ok, b1], b2, fun e he => ⟨fun h => ?_, fun s hss hes' huniq => ?_⟩⟩
    · rw [(b3 e he).1 fun s hs' => h s (List.mem_cons_of_mem _ hs'), a3 e he, if_neg (h s0 (by simp))]
    · by_cases hin : s ∈ ss
      · exact (b3 e he).2 s hin hes' huniq
      · have : s = s0 := by
          rcases List.mem_cons.1 hss with h | h
          · exact h
          · exact absurd h hin
        subst this
        rw [(b3 e he).1 ?_, a3 e he, if_pos hes']
        intro s' hs' hm
        rw [huniq s' hm] at hs'
        exact hin hs'

end

/-! ### The sides of the square -/

/-- A lattice point on a side of the square. -/
def onSide (c : Nat) (q : Pt) : Side → Prop
  | .bottom => q.2 = 0
  | .right => q.1 = c
  | .top => q.2 = c
  | .left => q.1 = 0

theorem bsides_on : ∀ b ∈ bsides,
    (b.1 = .bottom → b.2.1.1.2 = 0 ∧ b.2.1.2.2 = 0 ∧ b.2.2.2 = .first) ∧
    (b.1 = .right → b.2.1.1.1 = 4 ∧ b.2.1.2.1 = 4 ∧ b.2.2.1 = .last) ∧
    (b.1 = .top → b.2.1.1.2 = 4 ∧ b.2.1.2.2 = 4 ∧ b.2.2.2 = .last) ∧
    (b.1 = .left → b.2.1.1.1 = 0 ∧ b.2.1.2.1 = 0 ∧ b.2.2.1 = .first) := by
  decide +kernel

theorem onBnd_side {n : Nat} {sd : Side} {s : Pt × Pt} (h : OnBnd n sd s) : onSide (4 * n) s.1 sd ∧ onSide (4 * n) s.2 sd := by
  obtain ⟨t, b, hb, rfl, h1, h2, rfl⟩ := h
  obtain ⟨q1, q2, q3, q4⟩ := bsides_on b hb
  cases hsd : b.1
  · obtain ⟨e1, e2, e3⟩ := q1 hsd
    simp only [onSide, move, shift, e1, e2]
    rw [e3] at h2; have := h2.2; omega
  · obtain ⟨e1, e2, e3⟩ := q2 hsd
    simp only [onSide, move, shift, e1, e2]
    rw [e3] at h1; simp only [Cond.ok] at h1; omega
  · obtain ⟨e1, e2, e3⟩ := q3 hsd
    simp only [onSide, move, shift, e1, e2]
    rw [e3] at h2; simp only [Cond.ok] at h2; omega
  · obtain ⟨e1, e2, e3⟩ := q4 hsd
    simp only [onSide, move, shift, e1, e2]
    rw [e3] at h1; have := h1.2; omega

theorem table_bottom : ∀ p ∈ Piece.all, ∀ s ∈ ring p.pts, ∀ fx lx fy ly : Bool,
    (p.cx.flag fx lx = true ∧ p.cy.flag fy ly = true ∧ fy = true ∧ s.1.2 = 0 ∧ s.2.2 = 0) →
    ∃ b ∈ bsides, b.1 = .bottom ∧ b.2.1 = s ∧ b.2.2.1 = .any ∧ b.2.2.2 = .first := by
  decide +kernel

theorem table_right : ∀ p ∈ Piece.all, ∀ s ∈ ring p.pts, ∀ fx lx fy ly : Bool,
    (p.cx.flag fx lx = true ∧ p.cy.flag fy ly = true ∧ lx = true ∧ s.1.1 = 4 ∧ s.2.1 = 4) →
    ∃ b ∈ bsides, b.1 = .right ∧ b.2.1 = s ∧ b.2.2.1 = .last ∧ b.2.2.2 = .any := by
  decide +kernel

theorem table_top : ∀ p ∈ Piece.all, ∀ s ∈ ring p.pts, ∀ fx lx fy ly : Bool,
    (p.cx.flag fx lx = true ∧ p.cy.flag fy ly = true ∧ ly = true ∧ s.1.2 = 4 ∧ s.2.2 = 4) →
    ∃ b ∈ bsides, b.1 = .top ∧ b.2.1 = s ∧ b.2.2.1 = .any ∧ b.2.2.2 = .last := by
  decide +kernel

theorem table_left : ∀ p ∈ Piece.all, ∀ s ∈ ring p.pts, ∀ fx lx fy ly : Bool,
    (p.cx.flag fx lx = true ∧ p.cy.flag fy ly = true ∧ fx = true ∧ s.1.1 = 0 ∧ s.2.1 = 0) →
    ∃ b ∈ bsides, b.1 = .left ∧ b.2.1 = s ∧ b.2.2.1 = .first ∧ b.2.2.2 = .any := by
  decide +kernel

theorem side_onBnd {n : Nat} {t : Nat × Nat} {p : Piece} (hp : p.ok n t) {s : Pt × Pt} (hs : s ∈ ring (place t p)) {sd : Side}
    (h1 : onSide (4 * n) s.1 sd) (h2 : onSide (4 * n) s.2 sd) : OnBnd n sd s := by
  rw [ring_place] at hs
  obtain ⟨r, hr, rfl⟩ := List.mem_map.1 hs
  have hx : t.1 < n := Cond.lt hp.1
  have hy : t.2 < n := Cond.lt hp.2
  obtain ⟨l1, l2, l3, l4, -⟩ := pts_le p (Piece.mem_all p) r hr
  have f1 := (flag_iff hx _).1 hp.1
  have f2 := (flag_iff hy _).1 hp.2
  cases sd <;> simp only [onSide, move, shift] at h1 h2
  · obtain ⟨b, hb, e1, e2, e3, e4⟩ := table_bottom p (Piece.mem_all p) r hr _ _ _ _ ⟨f1, f2, by rw [decide_eq_true_eq]; omega, by omega, by omega⟩
    exact ⟨t, b, hb, e1, by rw [e3]; exact hx, by rw [e4]; exact ⟨hy, by omega⟩, by rw [e2]⟩
  · obtain ⟨b, hb, e1, e2, e3, e4⟩ := table_right p (Piece.mem_all p) r hr _ _ _ _ ⟨f1, f2, by rw [decide_eq_true_eq]; omega, by omega, by omega⟩
    exact ⟨t, b, hb, e1, by rw [e3]; simp only [Cond.ok]; omega, by rw [e4]; exact hy, by rw [e2]⟩
  · obtain ⟨b, hb, e1, e2, e3, e4⟩ := table_top p (Piece.mem_all p) r hr _ _ _ _ ⟨f1, f2, by rw [decide_eq_true_eq]; omega, by omega, by omega⟩
    exact ⟨t, b, hb, e1, by rw [e3]; exact hx, by rw [e4]; simp only [Cond.ok]; omega, by rw [e2]⟩
  · obtain ⟨b, hb, e1, e2, e3, e4⟩ := table_left p (Piece.mem_all p) r hr _ _ _ _ ⟨f1, f2, by rw [decide_eq_true_eq]; omega, by omega, by omega⟩
    exact ⟨t, b, hb, e1, by rw [e3]; exact ⟨hx, by omega⟩, by rw [e4]; exact hy, by rw [e2]⟩

/-- The boundary lists hold the edges on the sides of the square. -/
theorem bnd_iff_side (l : Nat) (sd : Side) (e : Edge) (he : e ∈ edgesOf (raw l).polys) :
    e ∈ (raw l).bnd sd ↔ onSide (4 * 2 ^ l) e.1 sd ∧ onSide (4 * 2 ^ l) e.2 sd := by
  rw [mem_raw_bnd]
  constructor
  · rintro ⟨s, hs, rfl⟩
    obtain ⟨a, b⟩ := onBnd_side hs
    rcases mkEdge_cases s with h | h <;> rw [h]
    · exact ⟨a, b⟩
    · exact ⟨b, a⟩
  · intro h
    rw [edgesOf_eq] at he
    obtain ⟨s, hs, rfl⟩ := List.mem_map.1 he
    obtain ⟨t, p, hp, hm⟩ := (mem_raw_sides l s).1 hs
    refine ⟨s, side_onBnd hp hm ?_ ?_, rfl⟩
    · rcases mkEdge_cases s with h' | h' <;> simp only [h'] at h
      · exact h.1
      · exact h.2
    · rcases mkEdge_cases s with h' | h' <;> simp only [h'] at h
      · exact h.2
      · exact h.1

theorem onSide_unique {c : Nat} (hc : 0 < c) {a b : Pt} (hab : a ≠ b) {s s' : Side} (h1 : onSide c a s) (h2 : onSide c b s)
    (h1' : onSide c a s') (h2' : onSide c b s') : s' = s := by
  by_contra hne
  cases s <;> cases s' <;> simp only [onSide, not_true_eq_false] at * <;> first
    | omega
    | exact hab (Prod.ext (by omega) (by omega))

end Verif.HexMesher
