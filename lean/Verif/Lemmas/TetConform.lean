import Verif.Lemmas.TetFine
/-! The refinement of a conforming tetrahedral mesh succeeds and gives a conforming mesh. -/
namespace Verif.TetRefine
open Verif.Spec.TetMesh
open TriRefine hiding Mesh midpoint breakEdges refine refineN inner

/-! ### `std::unique` and sorting -/

theorem uniqueFrom_keys (last : Tri) (l : List (Tri × Bd)) :
    (uniqueFrom last l).map Prod.fst = Lookup.uniqueFrom last (l.map Prod.fst) := by
  induction l generalizing last with
  | nil => rfl
  | cons y l ih =>
    simp only [uniqueFrom, List.map_cons, Lookup.uniqueFrom]
    split
    · exact ih last
    · rw [List.map_cons, ih]

theorem unique_keys (l : List (Tri × Bd)) : (unique l).map Prod.fst = Lookup.unique (l.map Prod.fst) := by
  cases l with
  | nil => rfl
  | cons y l => simp only [unique, List.map_cons, Lookup.unique, uniqueFrom_keys]

theorem mem_of_uniqueFrom (last : Tri) (l : List (Tri × Bd)) {x : Tri × Bd} (h : x ∈ uniqueFrom last l) : x ∈ l := by
  induction l generalizing last with
  | nil => simp [uniqueFrom] at h
  | cons y l ih =>
    simp only [uniqueFrom] at h
    split at h
    · exact List.mem_cons_of_mem _ (ih last h)
    · rcases List.mem_cons.1 h with rfl | h
      · exact List.mem_cons_self
      · exact List.mem_cons_of_mem _ (ih _ h)

theorem mem_of_unique (l : List (Tri × Bd)) {x : Tri × Bd} (h : x ∈ unique l) : x ∈ l := by
  cases l with
  | nil => simp [unique] at h
  | cons y l =>
    rcases List.mem_cons.1 h with rfl | h
    · exact List.mem_cons_self
    · exact List.mem_cons_of_mem _ (mem_of_uniqueFrom _ _ h)

theorem unique_srt {srt : List (Tri × Bd) → List (Tri × Bd)} (hsrt : IsSort srt) (l : List (Tri × Bd)) :
    ((unique (srt l)).map Prod.fst).Pairwise (· < ·) ∧
    (∀ f, f ∈ (unique (srt l)).map Prod.fst ↔ f ∈ l.map Prod.fst) ∧ ∀ x ∈ unique (srt l), x ∈ l := by
  obtain ⟨hp, ho⟩ := hsrt l
  refine ⟨?_, ?_, fun x hx => hp.mem_iff.1 (mem_of_unique _ hx)⟩
  · rw [unique_keys]
    apply Lookup.unique_sorted
    rw [List.pairwise_map]
    exact ho.imp fun h => not_lt.1 h
  · intro f
    rw [unique_keys, Lookup.mem_unique, (hp.map Prod.fst).mem_iff]

theorem sortEdges_sorted (l : List Edge) : (sortEdges l).Pairwise (· < ·) := by
  apply Lookup.unique_sorted
  refine (Sort.sortBy_weak (fun x y : Edge => decide (x < y)) ?_ ?_ l).imp ?_
  · intro a b h; simpa using le_of_lt (of_decide_eq_true h)
  · intro a b c h h'
    simp only [decide_eq_false_iff_not, not_lt] at h h' ⊢
    exact le_trans h h'
  · intro a b h; simpa using h

theorem mem_sortEdges (l : List Edge) (e : Edge) : e ∈ sortEdges l ↔ e ∈ l := by
  rw [sortEdges, Lookup.mem_unique, (Sort.sortBy_perm _ _).mem_iff]

/-! ### The loops -/

section
variable {K : Type} [Field K]

/-- The midpoints of the edges. -/
def mids (pts : List (K × K × K)) (es : List Edge) : List (K × K × K) :=
  es.map fun e => midpoint (pts.getD e.a (0, 0, 0)) (pts.getD e.b (0, 0, 0))

theorem breakEdges_ok (N : Nat) (pts : List (K × K × K)) (es : List Edge) (hN : N ≤ pts.length)
    (h : ∀ e ∈ es, e.a < N ∧ e.b < N) : breakEdges pts es = .ok (pts ++ mids pts es) := by
  induction es generalizing pts with
  | nil => simp [breakEdges, mids]
  | cons e es ih =>
    have h1 := h e (by simp)
    have ha : e.a < pts.length := by omega
    have hb : e.b < pts.length := by omega
    have hm : mids (pts ++ [midpoint pts[e.a] pts[e.b]]) es = mids pts es := by
      unfold mids
      apply List.map_congr_left
      intro y hy
      have h2 := h y (by simp [hy])
      have h3 : y.a < pts.length := by omega
      have h4 : y.b < pts.length := by omega
      simp [List.getD_eq_getElem?_getD, List.getElem?_append_left, h3, h4]
    rw [breakEdges, List.getElem?_eq_getElem ha, List.getElem?_eq_getElem hb]
    dsimp only
    rw [ih (pts ++ [midpoint pts[e.a] pts[e.b]]) (by simp; omega) (fun x hx => h x (by simp [hx])), hm]
    simp [mids, List.getD_eq_getElem?_getD, ha, hb]

end

/-- The descriptor stored with a face. -/
def desc (surfaces : List (Tri × Bd)) (s : Tri) : Bd :=
  match surfaces[Lookup.lowerBound (surfaces.map Prod.fst) s]? with
  | some x => x.2
  | none => Bd.inner

theorem descriptor_ok {S : List (Tri × Bd)} (hs : (S.map Prod.fst).Pairwise (· < ·)) {x : Tri × Bd} (hx : x ∈ S) :
    descriptor S x.1 = .ok x.2 ∧ desc S x.1 = x.2 := by
  obtain ⟨i, hi, rfl⟩ := List.getElem_of_mem hx
  have h := Lookup.lowerBound_getElem (S.map Prod.fst) ((Lookup.strictSorted_iff_pairwise _).2 hs) i
    (by simpa using hi)
  rw [List.getElem_map] at h
  unfold descriptor desc
  rw [h, List.getElem?_eq_getElem hi]
  simp

section
variable {E : List Edge} {N : Nat}

/-- What one turn of the loop appends. -/
def piece (E : List Edge) (N : Nat) (S : List (Tri × Bd)) (t : Tet) : Piece :=
  mapP (num E N t) (tpl (desc S ⟨t.a, t.b, t.c⟩) (desc S ⟨t.a, t.b, t.d⟩) (desc S ⟨t.a, t.c, t.d⟩)
    (desc S ⟨t.b, t.c, t.d⟩))

theorem mkTri_face {p q r : Nat} (h : p < q) (h' : q < r) : mkTri p q r = ⟨p, q, r⟩ := mkTri_lt h h'

theorem splitTet_ok (hE : E.Pairwise (· < ·)) {S : List (Tri × Bd)} (hS : (S.map Prod.fst).Pairwise (· < ·))
    {t : Tet} (ht : TetOk E N t) (hf : ∀ f ∈ faces t, f ∈ S.map Prod.fst) :
    splitTet E N S t = .ok (piece E N S t) := by
  have h1 := ht.h1
  have h2 := ht.h2
  have h3 := ht.h3
  have hd : ∀ f ∈ faces t, descriptor S f = .ok (desc S f) := by
    intro f hff
    obtain ⟨x, hx, rfl⟩ := List.mem_map.1 (hf f hff)
    obtain ⟨a, b⟩ := descriptor_ok hS hx
    rw [a, b]
  have d0 := hd ⟨t.a, t.b, t.c⟩ (by simp [faces])
  have d1 := hd ⟨t.a, t.b, t.d⟩ (by simp [faces])
  have d2 := hd ⟨t.a, t.c, t.d⟩ (by simp [faces])
  have d3 := hd ⟨t.b, t.c, t.d⟩ (by simp [faces])
  have he : ∀ e ∈ edges t, eofs E N e = .ok (mp E N e) := fun e he => eofs_ok E hE N e (ht.e e he)
  have e4 := he ⟨t.a, t.b⟩ (by simp [edges])
  have e5 := he ⟨t.b, t.c⟩ (by simp [edges])
  have e6 := he ⟨t.a, t.c⟩ (by simp [edges])
  have e7 := he ⟨t.a, t.d⟩ (by simp [edges])
  have e8 := he ⟨t.c, t.d⟩ (by simp [edges])
  have e9 := he ⟨t.b, t.d⟩ (by simp [edges])
  rw [splitTet, mkTri_lt h1 h2, mkTri_lt h1 (show t.b < t.d by omega), mkTri_lt (show t.a < t.c by omega) h3,
    mkTri_lt h2 h3, mkEdge_lt h1, mkEdge_lt h2, mkEdge_lt (show t.a < t.c by omega),
    mkEdge_lt (show t.a < t.d by omega), mkEdge_lt h3, mkEdge_lt (show t.b < t.d by omega), d0, d1, d2, d3, e4, e5,
    e6, e7, e8, e9]
  simp only [Outcome.bind_ok]
  unfold piece tpl
  rw [← concat_map]
  congr 1
  simp only [children, List.map_cons, List.map_nil, ← makeTetra_map (ht.mono hE)]
  rfl

theorem splitTets_ok (hE : E.Pairwise (· < ·)) {S : List (Tri × Bd)} (hS : (S.map Prod.fst).Pairwise (· < ·))
    (ts : List Tet) (ht : ∀ t ∈ ts, TetOk E N t) (hf : ∀ t ∈ ts, ∀ f ∈ faces t, f ∈ S.map Prod.fst) :
    splitTets E N S ts = .ok ⟨ts.flatMap fun t => (piece E N S t).edges, ts.flatMap fun t => (piece E N S t).surfaces,
      ts.flatMap (parts E N)⟩ := by
  induction ts with
  | nil => rfl
  | cons t ts ih =>
    rw [splitTets, splitTet_ok hE hS (ht t List.mem_cons_self) (hf t List.mem_cons_self),
      ih (fun t' h => ht t' (List.mem_cons_of_mem _ h)) fun t' h => hf t' (List.mem_cons_of_mem _ h)]
    rfl

theorem piece_edges (S : List (Tri × Bd)) (t : Tet) : (piece E N S t).edges.Perm ((parts E N t).flatMap edges) :=
  (tpl_edges _ _ _ _).map (mapE (num E N t))

theorem piece_surfaces (S : List (Tri × Bd)) (t : Tet) : (piece E N S t).surfaces.Perm
    ((faces t).flatMap (fun f => (kids E N f).map fun k => (k, desc S f)) ++
      ((inside E N t).map (fun f => (f, Bd.inner)) ++ (inside E N t).map fun f => (f, Bd.inner))) :=
  surf_perm t (desc S)

theorem mem_piece_surfaces (S : List (Tri × Bd)) (t : Tet) (x : Tri × Bd) : x ∈ (piece E N S t).surfaces ↔
    (∃ g ∈ faces t, x.1 ∈ kids E N g ∧ x.2 = desc S g) ∨ (x.1 ∈ inside E N t ∧ x.2 = Bd.inner) := by
  rw [(piece_surfaces S t).mem_iff]
  obtain ⟨f, b⟩ := x
  simp only [List.mem_append, or_self, List.mem_flatMap, List.mem_map, Prod.mk.injEq]
  constructor
  · rintro (⟨g, hg, k, hk, rfl, rfl⟩ | ⟨k, hk, rfl, rfl⟩)
    · exact .inl ⟨g, hg, hk, rfl⟩
    · exact .inr ⟨hk, rfl⟩
  · rintro (⟨g, hg, hk, rfl⟩ | ⟨hk, rfl⟩)
    · exact .inl ⟨g, hg, f, hk, rfl, rfl⟩
    · exact .inr ⟨f, hk, rfl, rfl⟩

theorem piece_keys (S : List (Tri × Bd)) (t : Tet) (f : Tri) :
    f ∈ (piece E N S t).surfaces.map Prod.fst ↔ ∃ k ∈ parts E N t, f ∈ faces k := by
  rw [((piece_surfaces S t).map Prod.fst).mem_iff, ← List.mem_flatMap, (parts_faces t).mem_iff]
  simp [List.map_flatMap, Function.comp_def]

end

/-! ### The refined mesh -/

section
variable {K : Type} [Field K] {m : Mesh K}

theorem tetOk_of (h : Conforming m) {t : Tet} (ht : t ∈ m.vols) : TetOk m.edges m.points.length t := by
  obtain ⟨h1, h2, h3, h4⟩ := h.vol_lt t ht
  exact ⟨h1, h2, h3, h4, fun e he => (h.edge_mem e).2 ⟨t, ht, he⟩⟩

theorem edge_lt (h : Conforming m) {e : Edge} (he : e ∈ m.edges) : e.a < e.b ∧ e.b < m.points.length := by
  obtain ⟨t, ht, het⟩ := (h.edge_mem e).1 he
  obtain ⟨h1, h2, h3, h4⟩ := h.vol_lt t ht
  simp only [edges, List.mem_cons, List.not_mem_nil, or_false] at het
  rcases het with rfl | rfl | rfl | rfl | rfl | rfl <;> dsimp only <;> omega

theorem face_ok (h : Conforming m) {f : Tri} (hf : f ∈ m.surfaces.map Prod.fst) :
    TriOk m.edges m.points.length f := by
  obtain ⟨t, ht, hft⟩ := (h.face_mem f).1 hf
  exact (tetOk_of h ht).face hft

/-- The new faces with their descriptors. -/
def newSurfaces (m : Mesh K) : List (Tri × Bd) :=
  m.vols.flatMap fun t => (piece m.edges m.points.length m.surfaces t).surfaces

/-- The refined mesh. -/
def fine (srt : List (Tri × Bd) → List (Tri × Bd)) (m : Mesh K) : Mesh K :=
  { points := m.points ++ mids m.points m.edges
    edges := sortEdges (m.vols.flatMap fun t => (piece m.edges m.points.length m.surfaces t).edges)
    surfaces := unique (srt (newSurfaces m))
    vols := Sort.sortBy (fun x y => decide (x < y)) (m.vols.flatMap (parts m.edges m.points.length)) }

variable {srt : List (Tri × Bd) → List (Tri × Bd)}

theorem mem_newSurfaces (h : Conforming m) (x : Tri × Bd) : x ∈ newSurfaces m ↔
    (∃ y ∈ m.surfaces, x.1 ∈ kids m.edges m.points.length y.1 ∧ x.2 = y.2) ∨
    (∃ t ∈ m.vols, x.1 ∈ inside m.edges m.points.length t ∧ x.2 = Bd.inner) := by
  unfold newSurfaces
  simp only [List.mem_flatMap, mem_piece_surfaces]
  constructor
  · rintro ⟨t, ht, ⟨g, hg, hk, hb⟩ | hi⟩
    · obtain ⟨y, hy, rfl⟩ := List.mem_map.1 ((h.face_mem g).2 ⟨t, ht, hg⟩)
      exact .inl ⟨y, hy, hk, by rw [hb, (descriptor_ok h.face_sorted hy).2]⟩
    · exact .inr ⟨t, ht, hi⟩
  · rintro (⟨y, hy, hk, hb⟩ | ⟨t, ht, hi⟩)
    · obtain ⟨t, ht, hf⟩ := (h.face_mem y.1).1 (List.mem_map_of_mem hy)
      exact ⟨t, ht, .inl ⟨y.1, hf, hk, by rw [hb, (descriptor_ok h.face_sorted hy).2]⟩⟩
    · exact ⟨t, ht, .inr hi⟩

theorem parts_flatMap_nodup (h : Conforming m) : (m.vols.flatMap (parts m.edges m.points.length)).Nodup :=
  flatMap_nodup _ _ (h.vol_sorted.imp ne_of_lt) (fun t ht => parts_nodup h.edge_sorted (tetOk_of h ht))
    fun t ht t' ht' _ hk hk' => part_parent h.edge_sorted (tetOk_of h ht) (tetOk_of h ht') hk hk'

theorem inside_flatMap_nodup (h : Conforming m) : (m.vols.flatMap (inside m.edges m.points.length)).Nodup :=
  flatMap_nodup _ _ (h.vol_sorted.imp ne_of_lt) (fun t ht => inside_nodup h.edge_sorted (tetOk_of h ht))
    fun t ht t' ht' _ hk hk' => inside_parent h.edge_sorted (tetOk_of h ht) (tetOk_of h ht') hk hk'

theorem increasing (h : Conforming m) (t : Tet) (ht : t ∈ m.vols) : t.a < t.b ∧ t.b < t.c ∧ t.c < t.d := by
  have := h.vol_lt t ht; omega

theorem fine_increasing (h : Conforming m) (k : Tet) (hk : k ∈ m.vols.flatMap (parts m.edges m.points.length)) :
    k.a < k.b ∧ k.b < k.c ∧ k.c < k.d := by
  obtain ⟨t, ht, hk⟩ := List.mem_flatMap.1 hk
  exact part_increasing h.edge_sorted (tetOk_of h ht) hk

/-- A part of a face belongs to as many new tetrahedra as the face to old ones. -/
theorem owners_kid (h : Conforming m) {g f : Tri} (hg : g ∈ m.surfaces.map Prod.fst)
    (hf : f ∈ kids m.edges m.points.length g) :
    owners (m.vols.flatMap (parts m.edges m.points.length)) f = owners m.vols g := by
  rw [owners_count _ (fine_increasing h), owners_count _ (increasing h), (perm_flatMap_faces m.vols).count_eq,
    List.count_append, List.count_append, count_kids h.edge_sorted (face_ok h hg) hf,
    List.count_eq_zero_of_not_mem (l := m.vols.flatMap (inside m.edges m.points.length))]
  · rfl
  · intro hc
    obtain ⟨t, ht, hi⟩ := List.mem_flatMap.1 hc
    exact inside_not_kid h.edge_sorted (tetOk_of h ht) (face_ok h hg) hi hf
  · intro g' hg'
    obtain ⟨t, ht, hgt⟩ := List.mem_flatMap.1 hg'
    exact (tetOk_of h ht).face hgt

/-- A face inside belongs to two tetrahedra. -/
theorem owners_inside (h : Conforming m) {t : Tet} (ht : t ∈ m.vols) {f : Tri}
    (hf : f ∈ inside m.edges m.points.length t) :
    owners (m.vols.flatMap (parts m.edges m.points.length)) f = 2 := by
  rw [owners_count _ (fine_increasing h), (perm_flatMap_faces m.vols).count_eq,
    List.count_append, List.count_append, List.count_eq_zero_of_not_mem (l := List.flatMap _ _),
    List.count_eq_one_of_mem (inside_flatMap_nodup h) (List.mem_flatMap.2 ⟨t, ht, hf⟩)]
  intro hc
  obtain ⟨g, hg, hk⟩ := List.mem_flatMap.1 hc
  obtain ⟨t', ht', hgt⟩ := List.mem_flatMap.1 hg
  exact inside_not_kid h.edge_sorted (tetOk_of h ht) ((tetOk_of h ht').face hgt) hf hk

theorem mem_fine_vols (m : Mesh K) (k : Tet) :
    k ∈ (fine srt m).vols ↔ ∃ t ∈ m.vols, k ∈ parts m.edges m.points.length t := by
  rw [fine, (Sort.sortBy_perm _ _).mem_iff, List.mem_flatMap]

theorem mp_lt_fine (h : Conforming m) {e : Edge} (he : e ∈ m.edges) :
    mp m.edges m.points.length e < (fine srt m).points.length := by
  have := ix_lt m.edges h.edge_sorted e he
  simp only [fine, List.length_append, mids, List.length_map, mp]
  omega

theorem fine_conforming (hsrt : IsSort srt) (h : Conforming m) : Conforming (fine srt m) := by
  obtain ⟨u1, u2, u3⟩ := unique_srt hsrt (newSurfaces m)
  refine ⟨?_, ?_, sortEdges_sorted _, ?_, u1, ?_, ?_⟩
  · intro k hk
    obtain ⟨t, ht, hk⟩ := (mem_fine_vols m k).1 hk
    have h1 := part_increasing h.edge_sorted (tetOk_of h ht) hk
    have h2 := part_le h.edge_sorted (tetOk_of h ht) hk
    have h3 := mp_lt_fine (srt := srt) h (tetOk_of h ht).cd
    omega
  · have := Sort.sortBy_sorted (fun x y : Tet => decide (x < y)) ?_ ?_ _ (parts_flatMap_nodup h)
    · exact this.imp fun h => of_decide_eq_true h
    · intro a b h hne
      simp only [decide_eq_false_iff_not, not_lt] at h
      exact decide_eq_true (lt_of_le_of_ne h (Ne.symm hne))
    · intro a b c h h'
      exact decide_eq_true (lt_trans (of_decide_eq_true h) (of_decide_eq_true h'))
  · intro e
    rw [fine, mem_sortEdges, List.mem_flatMap]
    constructor
    · rintro ⟨t, ht, he⟩
      obtain ⟨k, hk, hek⟩ := List.mem_flatMap.1 ((piece_edges m.surfaces t).mem_iff.1 he)
      exact ⟨k, (mem_fine_vols m k).2 ⟨t, ht, hk⟩, hek⟩
    · rintro ⟨k, hk, hek⟩
      obtain ⟨t, ht, hk⟩ := (mem_fine_vols m k).1 hk
      exact ⟨t, ht, (piece_edges m.surfaces t).mem_iff.2 (List.mem_flatMap.2 ⟨k, hk, hek⟩)⟩
  · intro f
    change f ∈ (unique (srt (newSurfaces m))).map Prod.fst ↔ _
    rw [u2, newSurfaces, List.map_flatMap, List.mem_flatMap]
    simp only [piece_keys, mem_fine_vols]
    constructor
    · rintro ⟨t, ht, k, hk, hf⟩; exact ⟨k, ⟨t, ht, hk⟩, hf⟩
    · rintro ⟨k, ⟨t, ht, hk⟩, hf⟩; exact ⟨t, ht, k, hk, hf⟩
  · intro x hx
    have ho : owners (fine srt m).vols x.1 = owners (m.vols.flatMap (parts m.edges m.points.length)) x.1 :=
      (Sort.sortBy_perm _ _).countP_eq _
    rw [ho]
    rcases (mem_newSurfaces h x).1 (u3 x hx) with ⟨y, hy, hk, hb⟩ | ⟨t, ht, hi, hb⟩
    · rw [owners_kid h (List.mem_map_of_mem hy) hk, h.shared y hy, hb]
    · rw [owners_inside h ht hi, hb]; rfl

theorem length_flatMap_const {α β : Type} (L : List α) (f : α → List β) (c : Nat) (h : ∀ x, (f x).length = c) :
    (L.flatMap f).length = c * L.length := by
  induction L with
  | nil => simp
  | cons x L ih => rw [List.flatMap_cons, List.length_append, ih, h, List.length_cons]; ring

theorem length_of_count {α : Type} [DecidableEq α] (S : List α) (hS : S.Nodup) (L : List α) (h : ∀ x ∈ L, x ∈ S) :
    (S.map fun s => L.count s).sum = L.length := by
  induction L with
  | nil => simp
  | cons x L ih =>
    have h1 := ih fun y hy => h y (List.mem_cons_of_mem _ hy)
    have h2 : (S.map fun s => (x :: L).count s).sum = (S.map fun s => L.count s).sum + S.count x := by
      clear h1 ih h hS
      induction S with
      | nil => simp
      | cons s S ih =>
        rw [List.map_cons, List.sum_cons, ih, List.map_cons, List.sum_cons, List.count_cons, List.count_cons]
        by_cases hxs : x = s
        · subst hxs; simp; omega
        · simp [hxs, Ne.symm hxs]; omega
    rw [h2, h1, List.count_eq_one_of_mem hS (h x List.mem_cons_self)]; rfl

theorem sum_owners (ts : List Tet) (S : List (Tri × Bd))
    (h : ∀ x ∈ S, owners ts x.1 = if x.2.bnd then 1 else 2) :
    (S.map fun x => owners ts x.1).sum + S.countP (fun x => x.2.bnd) = 2 * S.length := by
  induction S with
  | nil => rfl
  | cons x S ih =>
    have h1 := ih fun y hy => h y (List.mem_cons_of_mem _ hy)
    have h2 := h x List.mem_cons_self
    simp only [List.map_cons, List.sum_cons, List.length_cons, List.countP_cons, h2]
    split <;> omega

/-- Number of faces of a conforming mesh. -/
theorem face_count (h : Conforming m) :
    2 * m.surfaces.length = 4 * m.vols.length + m.surfaces.countP fun x => x.2.bnd := by
  have h1 := sum_owners m.vols m.surfaces h.shared
  have h2 := length_of_count (m.surfaces.map Prod.fst) (h.face_sorted.imp ne_of_lt) (m.vols.flatMap faces) (by
    intro f hf
    obtain ⟨t, ht, hft⟩ := List.mem_flatMap.1 hf
    exact (h.face_mem f).2 ⟨t, ht, hft⟩)
  rw [length_flatMap_const m.vols faces 4 (fun _ => rfl), List.map_map] at h2
  have h3 : (m.surfaces.map fun x => owners m.vols x.1).sum =
      (m.surfaces.map ((fun s => (m.vols.flatMap faces).count s) ∘ Prod.fst)).sum := by
    congr 1
    apply List.map_congr_left
    intro x _
    exact owners_count _ (increasing h) _
  omega

theorem fine_vols_length (m : Mesh K) : (fine srt m).vols.length = 8 * m.vols.length := by
  rw [fine, (Sort.sortBy_perm _ _).length_eq, length_flatMap_const _ _ 8 fun _ => rfl]

theorem fine_surfaces_length (hsrt : IsSort srt) (h : Conforming m) :
    (fine srt m).surfaces.length = 4 * m.surfaces.length + 8 * m.vols.length := by
  have hf := fine_conforming hsrt h
  have hn : ((m.surfaces.map Prod.fst).flatMap (kids m.edges m.points.length) ++
      m.vols.flatMap (inside m.edges m.points.length)).Nodup := by
    rw [List.nodup_append]
    refine ⟨flatMap_nodup _ _ (h.face_sorted.imp ne_of_lt) (fun g hg => kids_nodup h.edge_sorted (face_ok h hg))
      (fun g hg g' hg' _ hk hk' => kid_parent h.edge_sorted (face_ok h hg) (face_ok h hg') hk hk'),
      inside_flatMap_nodup h, ?_⟩
    intro f hf f' hf' hff
    subst hff
    obtain ⟨g, hg, hk⟩ := List.mem_flatMap.1 hf
    obtain ⟨t, ht, hi⟩ := List.mem_flatMap.1 hf'
    exact inside_not_kid h.edge_sorted (tetOk_of h ht) (face_ok h hg) hi hk
  have hp := (List.perm_ext_iff_of_nodup (hf.face_sorted.imp ne_of_lt) hn).2 (by
    intro f
    change f ∈ (unique (srt (newSurfaces m))).map Prod.fst ↔ _
    rw [(unique_srt hsrt (newSurfaces m)).2.1, List.mem_append, List.mem_flatMap, List.mem_flatMap, List.mem_map]
    constructor
    · rintro ⟨x, hx, rfl⟩
      rcases (mem_newSurfaces h x).1 hx with ⟨y, hy, hk, _⟩ | ⟨t, ht, hi, _⟩
      · exact .inl ⟨y.1, List.mem_map_of_mem hy, hk⟩
      · exact .inr ⟨t, ht, hi⟩
    · rintro (⟨g, hg, hk⟩ | ⟨t, ht, hi⟩)
      · obtain ⟨y, hy, rfl⟩ := List.mem_map.1 hg
        exact ⟨(f, y.2), (mem_newSurfaces h _).2 (.inl ⟨y, hy, hk, rfl⟩), rfl⟩
      · exact ⟨(f, Bd.inner), (mem_newSurfaces h _).2 (.inr ⟨t, ht, hi, rfl⟩), rfl⟩)
  have := hp.length_eq
  rw [List.length_map, List.length_append, length_flatMap_const _ _ 4 (fun _ => rfl),
    length_flatMap_const _ _ 8 (fun _ => rfl), List.length_map] at this
  exact this

theorem refine_ok (hsrt : IsSort srt) (h : Conforming m) : refine srt m = .ok (fine srt m) := by
  have hl := fine_surfaces_length hsrt h
  have hc := face_count h
  have hv := fine_vols_length (srt := srt) m
  rw [fine, (Sort.sortBy_perm _ _).length_eq] at hv
  rw [refine, breakEdges_ok m.points.length _ _ le_rfl fun e he => by have := edge_lt h he; omega,
    Outcome.bind_ok, splitTets_ok h.edge_sorted h.face_sorted _ (fun t ht => tetOk_of h ht)
      (fun t ht f hf => (h.face_mem f).2 ⟨t, ht, hf⟩), Outcome.bind_ok]
  dsimp only
  rw [if_pos]
  · rfl
  · change _ ∧ (fine srt m).surfaces.length = _
    rw [hl, hv]
    omega

end
end Verif.TetRefine
