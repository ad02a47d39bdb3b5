import Verif.Lemmas.TetRefine
/-! Lemmas on the uniform refinement of tetrahedral meshes: the refined mesh. -/
namespace Verif.TetRefine
open Verif.Spec.TetMesh
open TriRefine hiding Mesh midpoint breakEdges refine refineN inner

section
variable {E : List Edge} {N : Nat}

/-! ### Faces inside -/

theorem mem_inside (t : Tet) (f : Tri) : f ∈ inside E N t ↔
    f = ⟨mp E N (tab t), mp E N (tac t), mp E N (tad t)⟩ ∨ f = ⟨mp E N (tab t), mp E N (tbc t), mp E N (tbd t)⟩ ∨
    f = ⟨mp E N (tac t), mp E N (tbc t), mp E N (tcd t)⟩ ∨ f = ⟨mp E N (tad t), mp E N (tbd t), mp E N (tcd t)⟩ ∨
    f = ⟨mp E N (tab t), mp E N (tac t), mp E N (tbd t)⟩ ∨ f = ⟨mp E N (tac t), mp E N (tad t), mp E N (tbd t)⟩ ∨
    f = ⟨mp E N (tac t), mp E N (tbc t), mp E N (tbd t)⟩ ∨ f = ⟨mp E N (tac t), mp E N (tbd t), mp E N (tcd t)⟩ := by
  simp [inside, tplInt, mapT, num]

/-- The three edges whose midpoints are the vertices of a face inside. -/
def Triple (t : Tet) (e1 e2 e3 : Edge) : Prop :=
  (e1 = tab t ∧ e2 = tac t ∧ e3 = tad t) ∨ (e1 = tab t ∧ e2 = tbc t ∧ e3 = tbd t) ∨
  (e1 = tac t ∧ e2 = tbc t ∧ e3 = tcd t) ∨ (e1 = tad t ∧ e2 = tbd t ∧ e3 = tcd t) ∨
  (e1 = tab t ∧ e2 = tac t ∧ e3 = tbd t) ∨ (e1 = tac t ∧ e2 = tad t ∧ e3 = tbd t) ∨
  (e1 = tac t ∧ e2 = tbc t ∧ e3 = tbd t) ∨ (e1 = tac t ∧ e2 = tbd t ∧ e3 = tcd t)

theorem inside_triple {t : Tet} (ht : TetOk E N t) {f : Tri} (hf : f ∈ inside E N t) :
    ∃ e1 e2 e3, e1 ∈ E ∧ e2 ∈ E ∧ e3 ∈ E ∧ Triple t e1 e2 e3 ∧ f = ⟨mp E N e1, mp E N e2, mp E N e3⟩ := by
  rcases (mem_inside t f).1 hf with h | h | h | h | h | h | h | h
  · exact ⟨_, _, _, ht.ab, ht.ac, ht.ad, .inl ⟨rfl, rfl, rfl⟩, h⟩
  · exact ⟨_, _, _, ht.ab, ht.bc, ht.bd, .inr (.inl ⟨rfl, rfl, rfl⟩), h⟩
  · exact ⟨_, _, _, ht.ac, ht.bc, ht.cd, .inr (.inr (.inl ⟨rfl, rfl, rfl⟩)), h⟩
  · exact ⟨_, _, _, ht.ad, ht.bd, ht.cd, .inr (.inr (.inr (.inl ⟨rfl, rfl, rfl⟩))), h⟩
  · exact ⟨_, _, _, ht.ab, ht.ac, ht.bd, .inr (.inr (.inr (.inr (.inl ⟨rfl, rfl, rfl⟩)))), h⟩
  · exact ⟨_, _, _, ht.ac, ht.ad, ht.bd, .inr (.inr (.inr (.inr (.inr (.inl ⟨rfl, rfl, rfl⟩))))), h⟩
  · exact ⟨_, _, _, ht.ac, ht.bc, ht.bd, .inr (.inr (.inr (.inr (.inr (.inr (.inl ⟨rfl, rfl, rfl⟩)))))), h⟩
  · exact ⟨_, _, _, ht.ac, ht.bd, ht.cd, .inr (.inr (.inr (.inr (.inr (.inr (.inr ⟨rfl, rfl, rfl⟩)))))), h⟩

/-- Extremes and sum of the six endpoints determine the tetrahedron. -/
theorem triple_det {t t' : Tet} (h : t.a < t.b ∧ t.b < t.c ∧ t.c < t.d) (h' : t'.a < t'.b ∧ t'.b < t'.c ∧ t'.c < t'.d)
    {e1 e2 e3 : Edge} (h1 : Triple t e1 e2 e3) (h2 : Triple t' e1 e2 e3) : t = t' := by
  obtain ⟨a, b, c, d⟩ := t
  obtain ⟨a', b', c', d'⟩ := t'
  obtain ⟨x1, y1⟩ := e1
  obtain ⟨x2, y2⟩ := e2
  obtain ⟨x3, y3⟩ := e3
  simp only [Triple, tab, tac, tad, tbc, tbd, tcd, Edge.mk.injEq] at h1 h2
  dsimp only at h h'
  rw [Tet.mk.injEq]
  rcases h1 with h1 | h1 | h1 | h1 | h1 | h1 | h1 | h1 <;>
  rcases h2 with h2 | h2 | h2 | h2 | h2 | h2 | h2 | h2 <;> omega

theorem inside_parent (hs : E.Pairwise (· < ·)) {t t' : Tet} (ht : TetOk E N t) (ht' : TetOk E N t') {f : Tri}
    (hf : f ∈ inside E N t) (hf' : f ∈ inside E N t') : t = t' := by
  obtain ⟨e1, e2, e3, m1, m2, m3, h, rfl⟩ := inside_triple ht hf
  obtain ⟨g1, g2, g3, n1, n2, n3, h', he⟩ := inside_triple ht' hf'
  simp only [Tri.mk.injEq, mp_inj hs m1 n1, mp_inj hs m2 n2, mp_inj hs m3 n3] at he
  obtain ⟨rfl, rfl, rfl⟩ := he
  exact triple_det ⟨ht.h1, ht.h2, ht.h3⟩ ⟨ht'.h1, ht'.h2, ht'.h3⟩ h h'

theorem inside_not_kid (hs : E.Pairwise (· < ·)) {t : Tet} (ht : TetOk E N t) {g : Tri} (hg : TriOk E N g) {f : Tri}
    (hf : f ∈ inside E N t) : f ∉ kids E N g := by
  intro hk
  obtain ⟨e1, e2, e3, m1, m2, m3, h, rfl⟩ := inside_triple ht hf
  have ge : N ≤ mp E N e1 := mp_ge e1
  have g1 := hg.h1
  have g2 := hg.h2
  have g3 := hg.h3
  rcases (mem_kids_iff g _).1 hk with h' | h' | h' | h' <;> rw [Tri.mk.injEq] at h'
  · omega
  · omega
  · omega
  · rw [mp_inj hs m1 hg.e1, mp_inj hs m2 hg.e3, mp_inj hs m3 hg.e2] at h'
    obtain ⟨rfl, rfl, rfl⟩ := h'
    have t1 := ht.h1
    have t2 := ht.h2
    have t3 := ht.h3
    simp only [Triple, tab, tac, tad, tbc, tbd, tcd, ab, ac, bc, Edge.mk.injEq] at h
    omega

theorem mapT_inj {φ : Nat → Nat} (hφ : StrictMono φ) : Function.Injective (mapT φ) := by
  intro x y h
  simp only [mapT, Tri.mk.injEq] at h
  exact Tri.ext' (hφ.injective h.1) (hφ.injective h.2.1) (hφ.injective h.2.2)

theorem mapV_inj {φ : Nat → Nat} (hφ : StrictMono φ) : Function.Injective (mapV φ) := by
  intro x y h
  simp only [mapV, Tet.mk.injEq] at h
  exact Tet.ext' (hφ.injective h.1) (hφ.injective h.2.1) (hφ.injective h.2.2.1) (hφ.injective h.2.2.2)

theorem inside_nodup (hs : E.Pairwise (· < ·)) {t : Tet} (ht : TetOk E N t) : (inside E N t).Nodup :=
  (by decide +kernel : tplInt.Nodup).map (mapT_inj (ht.mono hs))

theorem parts_nodup (hs : E.Pairwise (· < ·)) {t : Tet} (ht : TetOk E N t) : (parts E N t).Nodup :=
  (by decide +kernel : tplVols.Nodup).map (mapV_inj (ht.mono hs))

theorem faces_map (φ : Nat → Nat) (t : Tet) : faces (mapV φ t) = (faces t).map (mapT φ) := rfl
theorem edges_map (φ : Nat → Nat) (t : Tet) : edges (mapV φ t) = (edges t).map (mapE φ) := rfl

theorem part_face {t k : Tet} (hk : k ∈ parts E N t) : ∃ f ∈ faces k, f ∈ inside E N t := by
  have key : ∀ k ∈ tplVols, ∃ f ∈ faces k, f ∈ tplInt := by decide +kernel
  obtain ⟨k, hk0, rfl⟩ := List.mem_map.1 hk
  obtain ⟨f, h1, h2⟩ := key k hk0
  exact ⟨mapT _ f, by rw [faces_map]; exact List.mem_map_of_mem h1, List.mem_map_of_mem h2⟩

/-- A face of a part is inside, or a part of a face. -/
theorem part_faces {t k : Tet} (hk : k ∈ parts E N t) {f : Tri} (hf : f ∈ faces k) :
    f ∈ inside E N t ∨ ∃ g ∈ faces t, f ∈ kids E N g := by
  have := (parts_faces (E := E) (N := N) t).mem_iff.1 (List.mem_flatMap.2 ⟨k, hk, hf⟩)
  simp only [List.mem_append, or_self, List.mem_flatMap] at this
  tauto

theorem part_parent (hs : E.Pairwise (· < ·)) {t t' k : Tet} (ht : TetOk E N t) (ht' : TetOk E N t')
    (hk : k ∈ parts E N t) (hk' : k ∈ parts E N t') : t = t' := by
  obtain ⟨f, h1, h2⟩ := part_face hk
  rcases part_faces hk' h1 with h | ⟨g, hg, h⟩
  · exact inside_parent hs ht ht' h2 h
  · exact absurd h (inside_not_kid hs ht (ht'.face hg) h2)

theorem part_increasing (hs : E.Pairwise (· < ·)) {t k : Tet} (ht : TetOk E N t) (hk : k ∈ parts E N t) :
    k.a < k.b ∧ k.b < k.c ∧ k.c < k.d := by
  have key : ∀ k ∈ tplVols, k.a < k.b ∧ k.b < k.c ∧ k.c < k.d := by decide +kernel
  obtain ⟨k, hk0, rfl⟩ := List.mem_map.1 hk
  obtain ⟨h1, h2, h3⟩ := key k hk0
  exact ⟨ht.mono hs h1, ht.mono hs h2, ht.mono hs h3⟩

theorem part_le (hs : E.Pairwise (· < ·)) {t k : Tet} (ht : TetOk E N t) (hk : k ∈ parts E N t) :
    k.d ≤ mp E N (tcd t) := by
  have key : ∀ k ∈ tplVols, k.d ≤ 9 := by decide +kernel
  obtain ⟨k, hk0, rfl⟩ := List.mem_map.1 hk
  have := (ht.mono hs).monotone (key k hk0)
  exact this

/-! ### Counting -/

theorem faces_nodup {t : Tet} (h : t.a < t.b ∧ t.b < t.c ∧ t.c < t.d) : (faces t).Nodup := by
  simp only [faces, List.nodup_cons, List.mem_cons, List.not_mem_nil, or_false, Tri.mk.injEq, List.nodup_nil,
    and_true, not_false_eq_true]
  omega

theorem owners_count (ts : List Tet) (h : ∀ t ∈ ts, t.a < t.b ∧ t.b < t.c ∧ t.c < t.d) (f : Tri) :
    owners ts f = (ts.flatMap faces).count f := by
  induction ts with
  | nil => rfl
  | cons t ts ih =>
    have := ih fun t' ht' => h t' (List.mem_cons_of_mem _ ht')
    rw [List.flatMap_cons, List.count_append, ← this, owners, owners, List.countP_cons]
    have hn := faces_nodup (h t List.mem_cons_self)
    by_cases hf : f ∈ faces t
    · rw [List.count_eq_one_of_mem hn hf]; simp [hf]; omega
    · rw [List.count_eq_zero_of_not_mem hf]; simp [hf]

theorem count_kids (hs : E.Pairwise (· < ·)) {g f : Tri} (hg : TriOk E N g) (hf : f ∈ kids E N g) (L : List Tri)
    (hL : ∀ g' ∈ L, TriOk E N g') : (L.flatMap (kids E N)).count f = L.count g := by
  induction L with
  | nil => rfl
  | cons g' L ih =>
    have ho := hL g' List.mem_cons_self
    rw [List.flatMap_cons, List.count_append, ih fun x hx => hL x (List.mem_cons_of_mem _ hx), List.count_cons]
    by_cases hgg : g' = g
    · subst hgg
      rw [List.count_eq_one_of_mem (kids_nodup hs hg) hf]
      simp; omega
    · rw [List.count_eq_zero_of_not_mem fun h => hgg (kid_parent hs ho hg h hf)]
      simp [hgg]

theorem flatMap_nodup {α β : Type} (L : List α) (f : α → List β) (hL : L.Nodup) (h : ∀ x ∈ L, (f x).Nodup)
    (hd : ∀ x ∈ L, ∀ y ∈ L, ∀ b, b ∈ f x → b ∈ f y → x = y) : (L.flatMap f).Nodup := by
  induction L with
  | nil => simp
  | cons x L ih =>
    rw [List.nodup_cons] at hL
    rw [List.flatMap_cons, List.nodup_append]
    refine ⟨h x List.mem_cons_self, ih hL.2 (fun y hy => h y (List.mem_cons_of_mem _ hy))
      (fun y hy z hz => hd y (List.mem_cons_of_mem _ hy) z (List.mem_cons_of_mem _ hz)), ?_⟩
    intro b hb c hc hbc
    subst hbc
    obtain ⟨y, hy, hby⟩ := List.mem_flatMap.1 hc
    exact hL.1 (hd x List.mem_cons_self y (List.mem_cons_of_mem _ hy) b hb hby ▸ hy)

theorem perm_flatMap_faces (ts : List Tet) : ((ts.flatMap (parts E N)).flatMap faces).Perm
    ((ts.flatMap faces).flatMap (kids E N) ++ (ts.flatMap (inside E N) ++ ts.flatMap (inside E N))) := by
  induction ts with
  | nil => exact .refl _
  | cons t ts ih =>
    have h := (parts_faces (E := E) (N := N) t).append ih
    simp only [List.flatMap_cons, List.flatMap_append]
    refine h.trans ?_
    rw [List.perm_iff_count]
    intro a
    simp only [List.count_append]
    omega

end
end Verif.TetRefine
