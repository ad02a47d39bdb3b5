import Verif.Lemmas.TetInit
import Mathlib.Tactic.FieldSimp
import Mathlib.Tactic.Linarith
import Mathlib.Tactic.FinCases
/-! Volumes, convex hulls and lengths under the refinement of tetrahedra. -/
namespace Verif.TetRefine
open Verif.Spec.TetMesh
open TriRefine hiding Mesh midpoint breakEdges refine refineN inner

section
variable {K : Type} [Field K] {m : Mesh K} {srt : List (Tri × Bd) → List (Tri × Bd)}

/-- Coordinates of the ten vertices of the template. -/
def tp (p q r s : K × K × K) : Nat → K × K × K
  | 0 => p
  | 1 => q
  | 2 => r
  | 3 => s
  | 4 => midpoint p q
  | 5 => midpoint p r
  | 6 => midpoint p s
  | 7 => midpoint q r
  | 8 => midpoint q s
  | _ => midpoint r s

/-- The same for a stored tetrahedron. -/
def tpt (pts : List (K × K × K)) (t : Tet) : Nat → K × K × K :=
  tp (pt pts t.a) (pt pts t.b) (pt pts t.c) (pt pts t.d)

theorem fine_point_old {i : Nat} (hi : i < m.points.length) : pt (fine srt m).points i = pt m.points i := by
  simp [pt, fine, List.getD_eq_getElem?_getD, List.getElem?_append_left hi]

theorem fine_point_mid (h : Conforming m) {e : Edge} (he : e ∈ m.edges) :
    pt (fine srt m).points (mp m.edges m.points.length e) = midpoint (pt m.points e.a) (pt m.points e.b) := by
  have h1 := ix_spec m.edges h.edge_sorted e he
  simp only [pt, fine, mp, List.getD_eq_getElem?_getD]
  rw [List.getElem?_append_right (by omega), Nat.add_sub_cancel, mids, List.getElem?_map, h1]
  simp [List.getD_eq_getElem?_getD]

theorem fine_point (h : Conforming m) {t : Tet} (ht : t ∈ m.vols) {i : Nat} (hi : i ≤ 9) :
    pt (fine srt m).points (num m.edges m.points.length t i) = tpt m.points t i := by
  have ho := tetOk_of h ht
  have h1 := ho.h1
  have h2 := ho.h2
  have h3 := ho.h3
  have h4 := ho.h4
  match i, hi with
  | 0, _ => exact fine_point_old (by dsimp only [num]; omega)
  | 1, _ => exact fine_point_old (by dsimp only [num]; omega)
  | 2, _ => exact fine_point_old (by dsimp only [num]; omega)
  | 3, _ => exact fine_point_old (by dsimp only [num]; omega)
  | 4, _ => exact fine_point_mid h ho.ab
  | 5, _ => exact fine_point_mid h ho.ac
  | 6, _ => exact fine_point_mid h ho.ad
  | 7, _ => exact fine_point_mid h ho.bc
  | 8, _ => exact fine_point_mid h ho.bd
  | 9, _ => exact fine_point_mid h ho.cd

theorem tplVols_le : ∀ k ∈ tplVols, k.a ≤ 9 ∧ k.b ≤ 9 ∧ k.c ≤ 9 ∧ k.d ≤ 9 := by decide +kernel

/-- The vertices of a part. -/
theorem part_points (h : Conforming m) {t : Tet} (ht : t ∈ m.vols) {k : Tet} (hk : k ∈ tplVols) :
    pt (fine srt m).points (mapV (num m.edges m.points.length t) k).a = tpt m.points t k.a ∧
    pt (fine srt m).points (mapV (num m.edges m.points.length t) k).b = tpt m.points t k.b ∧
    pt (fine srt m).points (mapV (num m.edges m.points.length t) k).c = tpt m.points t k.c ∧
    pt (fine srt m).points (mapV (num m.edges m.points.length t) k).d = tpt m.points t k.d := by
  obtain ⟨h1, h2, h3, h4⟩ := tplVols_le k hk
  exact ⟨fine_point h ht h1, fine_point h ht h2, fine_point h ht h3, fine_point h ht h4⟩

end

section
variable {K : Type} [Field K] [LinearOrder K] [IsStrictOrderedRing K]
variable {m : Mesh K} {srt : List (Tri × Bd) → List (Tri × Bd)}

/-! ### Volume -/

theorem det_part (p q r s : K × K × K) {k : Tet} (hk : k ∈ tplVols) :
    det (tp p q r s k.a) (tp p q r s k.b) (tp p q r s k.c) (tp p q r s k.d) = det p q r s / 8 ∨
    det (tp p q r s k.a) (tp p q r s k.b) (tp p q r s k.c) (tp p q r s k.d) = -(det p q r s / 8) := by
  simp only [tplVols, List.mem_cons, List.not_mem_nil, or_false] at hk
  rcases hk with rfl | rfl | rfl | rfl | rfl | rfl | rfl | rfl <;> simp only [tp, det, midpoint]
  · left; ring
  · right; ring
  · left; ring
  · right; ring
  · left; ring
  · right; ring
  · left; ring
  · right; ring

theorem abs_eighth {x y : K} (h : x = y / 8 ∨ x = -(y / 8)) : |x| / 6 = |y| / 6 / 8 := by
  have : |x| = |y| / 8 := by
    rcases h with rfl | rfl
    · rw [abs_div, abs_of_pos (show (0 : K) < 8 by norm_num)]
    · rw [abs_neg, abs_div, abs_of_pos (show (0 : K) < 8 by norm_num)]
  rw [this]; ring

theorem part_volume (h : Conforming m) {t k : Tet} (ht : t ∈ m.vols)
    (hk : k ∈ parts m.edges m.points.length t) : volume (fine srt m).points k = volume m.points t / 8 := by
  obtain ⟨k, hk0, rfl⟩ := List.mem_map.1 hk
  obtain ⟨h1, h2, h3, h4⟩ := part_points (srt := srt) h ht hk0
  unfold volume
  rw [h1, h2, h3, h4]
  exact abs_eighth (det_part _ _ _ _ hk0)

theorem sum_parts (h : Conforming m) (ts : List Tet) (hts : ∀ t ∈ ts, t ∈ m.vols) :
    ((ts.flatMap (parts m.edges m.points.length)).map (volume (fine srt m).points)).sum =
      (ts.map (volume m.points)).sum := by
  induction ts with
  | nil => rfl
  | cons t ts ih =>
    rw [List.flatMap_cons, List.map_append, List.sum_append, ih fun t' h => hts t' (List.mem_cons_of_mem _ h),
      List.map_cons, List.sum_cons]
    congr 1
    rw [List.map_congr_left (g := fun _ => volume m.points t / 8)
      fun k hk => part_volume h (hts t List.mem_cons_self) hk]
    change _ + (_ + (_ + (_ + (_ + (_ + (_ + (_ + 0))))))) = _
    ring

theorem fine_totalVolume (h : Conforming m) : totalVolume (fine srt m) = totalVolume m := by
  rw [totalVolume, totalVolume, ← sum_parts (srt := srt) h m.vols fun _ h => h]
  exact ((Sort.sortBy_perm _ _).map _).sum_eq

/-! ### Covering -/

theorem hull_cover (p q r s x : K × K × K) (h : InHull p q r s x) :
    ∃ k ∈ tplVols, InHull (tp p q r s k.a) (tp p q r s k.b) (tp p q r s k.c) (tp p q r s k.d) x := by
  obtain ⟨a, b, c, d, ha, hb, hc, hd, hs, rfl⟩ := h
  have mk : ∀ k ∈ tplVols, (∃ l0 l1 l2 l3 : K, 0 ≤ l0 ∧ 0 ≤ l1 ∧ 0 ≤ l2 ∧ 0 ≤ l3 ∧ l0 + l1 + l2 + l3 = 1 ∧
      bary p q r s a b c d = bary (tp p q r s k.a) (tp p q r s k.b) (tp p q r s k.c) (tp p q r s k.d) l0 l1 l2 l3) →
      ∃ k ∈ tplVols, InHull (tp p q r s k.a) (tp p q r s k.b) (tp p q r s k.c) (tp p q r s k.d)
        (bary p q r s a b c d) := fun k hk h => ⟨k, hk, h⟩
  have hd' : d = 1 - a - b - c := by linarith
  by_cases h0 : 1 / 2 ≤ a
  · refine mk ⟨0, 4, 5, 6⟩ (by decide) ⟨2 * a - 1, 2 * b, 2 * c, 2 * d, ?_⟩
    refine ⟨by linarith, by linarith, by linarith, by linarith, by linarith, ?_⟩
    subst hd'
    simp only [bary, tp, midpoint, Prod.mk.injEq]
    refine ⟨?_, ?_, ?_⟩ <;> ring
  by_cases h1 : 1 / 2 ≤ b
  · refine mk ⟨1, 4, 7, 8⟩ (by decide) ⟨2 * b - 1, 2 * a, 2 * c, 2 * d, ?_⟩
    refine ⟨by linarith, by linarith, by linarith, by linarith, by linarith, ?_⟩
    subst hd'
    simp only [bary, tp, midpoint, Prod.mk.injEq]
    refine ⟨?_, ?_, ?_⟩ <;> ring
  by_cases h2 : 1 / 2 ≤ c
  · refine mk ⟨2, 5, 7, 9⟩ (by decide) ⟨2 * c - 1, 2 * a, 2 * b, 2 * d, ?_⟩
    refine ⟨by linarith, by linarith, by linarith, by linarith, by linarith, ?_⟩
    subst hd'
    simp only [bary, tp, midpoint, Prod.mk.injEq]
    refine ⟨?_, ?_, ?_⟩ <;> ring
  by_cases h3 : 1 / 2 ≤ d
  · refine mk ⟨3, 6, 8, 9⟩ (by decide) ⟨2 * d - 1, 2 * a, 2 * b, 2 * c, ?_⟩
    refine ⟨by linarith, by linarith, by linarith, by linarith, by linarith, ?_⟩
    subst hd'
    simp only [bary, tp, midpoint, Prod.mk.injEq]
    refine ⟨?_, ?_, ?_⟩ <;> ring
  by_cases h4 : 1 / 2 ≤ a + b
  · by_cases h5 : 1 / 2 ≤ a + d
    · refine mk ⟨4, 5, 6, 8⟩ (by decide) ⟨2 * a + 2 * b - 1, 2 * c, 2 * a + 2 * d - 1, 1 - 2 * a, ?_⟩
      refine ⟨by linarith, by linarith, by linarith, by linarith, by linarith, ?_⟩
      subst hd'
      simp only [bary, tp, midpoint, Prod.mk.injEq]
      refine ⟨?_, ?_, ?_⟩ <;> ring
    · refine mk ⟨4, 5, 7, 8⟩ (by decide) ⟨2 * a + 2 * b - 1, 1 - 2 * b, 2 * b + 2 * c - 1, 2 * d, ?_⟩
      refine ⟨by linarith, by linarith, by linarith, by linarith, by linarith, ?_⟩
      subst hd'
      simp only [bary, tp, midpoint, Prod.mk.injEq]
      refine ⟨?_, ?_, ?_⟩ <;> ring
  · by_cases h5 : 1 / 2 ≤ a + d
    · refine mk ⟨5, 6, 8, 9⟩ (by decide) ⟨1 - 2 * d, 2 * a + 2 * d - 1, 2 * b, 2 * c + 2 * d - 1, ?_⟩
      refine ⟨by linarith, by linarith, by linarith, by linarith, by linarith, ?_⟩
      subst hd'
      simp only [bary, tp, midpoint, Prod.mk.injEq]
      refine ⟨?_, ?_, ?_⟩ <;> ring
    · refine mk ⟨5, 7, 8, 9⟩ (by decide) ⟨2 * a, 2 * b + 2 * c - 1, 1 - 2 * c, 2 * c + 2 * d - 1, ?_⟩
      refine ⟨by linarith, by linarith, by linarith, by linarith, by linarith, ?_⟩
      subst hd'
      simp only [bary, tp, midpoint, Prod.mk.injEq]
      refine ⟨?_, ?_, ?_⟩ <;> ring

/-- What barycentric coordinates in the parent say about the part. -/
def Cond (k : Tet) (a b c d : K) : Prop :=
  (k = ⟨0, 4, 5, 6⟩ ∧ 1 / 2 < a) ∨ (k = ⟨1, 4, 7, 8⟩ ∧ 1 / 2 < b) ∨ (k = ⟨2, 5, 7, 9⟩ ∧ 1 / 2 < c) ∨
  (k = ⟨3, 6, 8, 9⟩ ∧ 1 / 2 < d) ∨
  ((a < 1 / 2 ∧ b < 1 / 2 ∧ c < 1 / 2 ∧ d < 1 / 2) ∧
    ((k = ⟨4, 5, 6, 8⟩ ∧ 1 / 2 < a + b ∧ 1 / 2 < a + d) ∨ (k = ⟨4, 5, 7, 8⟩ ∧ 1 / 2 < a + b ∧ a + d < 1 / 2) ∨
     (k = ⟨5, 6, 8, 9⟩ ∧ a + b < 1 / 2 ∧ 1 / 2 < a + d) ∨ (k = ⟨5, 7, 8, 9⟩ ∧ a + b < 1 / 2 ∧ a + d < 1 / 2)))

theorem open_part (p q r s x : K × K × K) {k : Tet} (hk : k ∈ tplVols)
    (h : InOpen (tp p q r s k.a) (tp p q r s k.b) (tp p q r s k.c) (tp p q r s k.d) x) :
    ∃ a b c d : K, 0 < a ∧ 0 < b ∧ 0 < c ∧ 0 < d ∧ a + b + c + d = 1 ∧ x = bary p q r s a b c d ∧ Cond k a b c d := by
  obtain ⟨u, v, w, z, hu, hv, hw, hz, hs, rfl⟩ := h
  have hz' : z = 1 - u - v - w := by linarith
  simp only [tplVols, List.mem_cons, List.not_mem_nil, or_false] at hk
  rcases hk with rfl | rfl | rfl | rfl | rfl | rfl | rfl | rfl
  · refine ⟨u + v / 2 + w / 2 + z / 2, v / 2, w / 2, z / 2, by linarith, by linarith, by linarith, by linarith,
      by linarith, ?_, .inl ⟨rfl, by linarith⟩⟩
    subst hz'; simp only [bary, tp, midpoint, Prod.mk.injEq]; refine ⟨?_, ?_, ?_⟩ <;> ring
  · refine ⟨v / 2, u + v / 2 + w / 2 + z / 2, w / 2, z / 2, by linarith, by linarith, by linarith, by linarith,
      by linarith, ?_, .inr (.inl ⟨rfl, by linarith⟩)⟩
    subst hz'; simp only [bary, tp, midpoint, Prod.mk.injEq]; refine ⟨?_, ?_, ?_⟩ <;> ring
  · refine ⟨v / 2, w / 2, u + v / 2 + w / 2 + z / 2, z / 2, by linarith, by linarith, by linarith, by linarith,
      by linarith, ?_, .inr (.inr (.inl ⟨rfl, by linarith⟩))⟩
    subst hz'; simp only [bary, tp, midpoint, Prod.mk.injEq]; refine ⟨?_, ?_, ?_⟩ <;> ring
  · refine ⟨v / 2, w / 2, z / 2, u + v / 2 + w / 2 + z / 2, by linarith, by linarith, by linarith, by linarith,
      by linarith, ?_, .inr (.inr (.inr (.inl ⟨rfl, by linarith⟩)))⟩
    subst hz'; simp only [bary, tp, midpoint, Prod.mk.injEq]; refine ⟨?_, ?_, ?_⟩ <;> ring
  · refine ⟨u / 2 + v / 2 + w / 2, u / 2 + z / 2, v / 2, w / 2 + z / 2, by linarith, by linarith, by linarith,
      by linarith, by linarith, ?_, .inr (.inr (.inr (.inr ⟨⟨by linarith, by linarith, by linarith, by linarith⟩,
        .inl ⟨rfl, by linarith, by linarith⟩⟩)))⟩
    subst hz'; simp only [bary, tp, midpoint, Prod.mk.injEq]; refine ⟨?_, ?_, ?_⟩ <;> ring
  · refine ⟨u / 2 + v / 2, u / 2 + w / 2 + z / 2, v / 2 + w / 2, z / 2, by linarith, by linarith, by linarith,
      by linarith, by linarith, ?_, .inr (.inr (.inr (.inr ⟨⟨by linarith, by linarith, by linarith, by linarith⟩,
        .inr (.inl ⟨rfl, by linarith, by linarith⟩)⟩)))⟩
    subst hz'; simp only [bary, tp, midpoint, Prod.mk.injEq]; refine ⟨?_, ?_, ?_⟩ <;> ring
  · refine ⟨u / 2 + v / 2, w / 2, u / 2 + z / 2, v / 2 + w / 2 + z / 2, by linarith, by linarith, by linarith,
      by linarith, by linarith, ?_, .inr (.inr (.inr (.inr ⟨⟨by linarith, by linarith, by linarith, by linarith⟩,
        .inr (.inr (.inl ⟨rfl, by linarith, by linarith⟩))⟩)))⟩
    subst hz'; simp only [bary, tp, midpoint, Prod.mk.injEq]; refine ⟨?_, ?_, ?_⟩ <;> ring
  · refine ⟨u / 2, v / 2 + w / 2, u / 2 + v / 2 + z / 2, w / 2 + z / 2, by linarith, by linarith, by linarith,
      by linarith, by linarith, ?_, .inr (.inr (.inr (.inr ⟨⟨by linarith, by linarith, by linarith, by linarith⟩,
        .inr (.inr (.inr ⟨rfl, by linarith, by linarith⟩))⟩)))⟩
    subst hz'; simp only [bary, tp, midpoint, Prod.mk.injEq]; refine ⟨?_, ?_, ?_⟩ <;> ring

theorem hull_part (p q r s x : K × K × K) {k : Tet} (hk : k ∈ tplVols)
    (h : InHull (tp p q r s k.a) (tp p q r s k.b) (tp p q r s k.c) (tp p q r s k.d) x) :
    InHull p q r s x := by
  obtain ⟨u, v, w, z, hu, hv, hw, hz, hs, rfl⟩ := h
  have hz' : z = 1 - u - v - w := by linarith
  simp only [tplVols, List.mem_cons, List.not_mem_nil, or_false] at hk
  rcases hk with rfl | rfl | rfl | rfl | rfl | rfl | rfl | rfl
  · refine ⟨u + v / 2 + w / 2 + z / 2, v / 2, w / 2, z / 2, by linarith, by linarith, by linarith, by linarith,
      by linarith, ?_⟩
    subst hz'; simp only [bary, tp, midpoint, Prod.mk.injEq]; refine ⟨?_, ?_, ?_⟩ <;> ring
  · refine ⟨v / 2, u + v / 2 + w / 2 + z / 2, w / 2, z / 2, by linarith, by linarith, by linarith, by linarith,
      by linarith, ?_⟩
    subst hz'; simp only [bary, tp, midpoint, Prod.mk.injEq]; refine ⟨?_, ?_, ?_⟩ <;> ring
  · refine ⟨v / 2, w / 2, u + v / 2 + w / 2 + z / 2, z / 2, by linarith, by linarith, by linarith, by linarith,
      by linarith, ?_⟩
    subst hz'; simp only [bary, tp, midpoint, Prod.mk.injEq]; refine ⟨?_, ?_, ?_⟩ <;> ring
  · refine ⟨v / 2, w / 2, z / 2, u + v / 2 + w / 2 + z / 2, by linarith, by linarith, by linarith, by linarith,
      by linarith, ?_⟩
    subst hz'; simp only [bary, tp, midpoint, Prod.mk.injEq]; refine ⟨?_, ?_, ?_⟩ <;> ring
  · refine ⟨u / 2 + v / 2 + w / 2, u / 2 + z / 2, v / 2, w / 2 + z / 2, by linarith, by linarith, by linarith,
      by linarith, by linarith, ?_⟩
    subst hz'; simp only [bary, tp, midpoint, Prod.mk.injEq]; refine ⟨?_, ?_, ?_⟩ <;> ring
  · refine ⟨u / 2 + v / 2, u / 2 + w / 2 + z / 2, v / 2 + w / 2, z / 2, by linarith, by linarith, by linarith,
      by linarith, by linarith, ?_⟩
    subst hz'; simp only [bary, tp, midpoint, Prod.mk.injEq]; refine ⟨?_, ?_, ?_⟩ <;> ring
  · refine ⟨u / 2 + v / 2, w / 2, u / 2 + z / 2, v / 2 + w / 2 + z / 2, by linarith, by linarith, by linarith,
      by linarith, by linarith, ?_⟩
    subst hz'; simp only [bary, tp, midpoint, Prod.mk.injEq]; refine ⟨?_, ?_, ?_⟩ <;> ring
  · refine ⟨u / 2, v / 2 + w / 2, u / 2 + v / 2 + z / 2, w / 2 + z / 2, by linarith, by linarith, by linarith,
      by linarith, by linarith, ?_⟩
    subst hz'; simp only [bary, tp, midpoint, Prod.mk.injEq]; refine ⟨?_, ?_, ?_⟩ <;> ring

theorem cond_unique {k k' : Tet} {a b c d : K} (hp : 0 < a ∧ 0 < b ∧ 0 < c ∧ 0 < d) (hs : a + b + c + d = 1)
    (h : Cond k a b c d) (h' : Cond k' a b c d) : k = k' := by
  obtain ⟨p1, p2, p3, p4⟩ := hp
  unfold Cond at h h'
  rcases h with ⟨rfl, h⟩ | ⟨rfl, h⟩ | ⟨rfl, h⟩ | ⟨rfl, h⟩ | ⟨⟨o1, o2, o3, o4⟩, ⟨rfl, h⟩ | ⟨rfl, h⟩ | ⟨rfl, h⟩ | ⟨rfl, h⟩⟩ <;>
  rcases h' with ⟨rfl, h'⟩ | ⟨rfl, h'⟩ | ⟨rfl, h'⟩ | ⟨rfl, h'⟩ |
    ⟨⟨o1', o2', o3', o4'⟩, ⟨rfl, h'⟩ | ⟨rfl, h'⟩ | ⟨rfl, h'⟩ | ⟨rfl, h'⟩⟩ <;>
  first
  | rfl
  | (exfalso; linarith)
  | (exfalso; obtain ⟨h1, h2⟩ := h; linarith)
  | (exfalso; obtain ⟨h1, h2⟩ := h; obtain ⟨h1', h2'⟩ := h'; linarith)

theorem bary_unique {p q r s : K × K × K} (hd : det p q r s ≠ 0) {a b c d a' b' c' d' : K}
    (hs : a + b + c + d = 1) (hs' : a' + b' + c' + d' = 1)
    (h : bary p q r s a b c d = bary p q r s a' b' c' d') : a = a' ∧ b = b' ∧ c = c' ∧ d = d' := by
  have key : ∀ {a b c d : K}, a + b + c + d = 1 → det p (bary p q r s a b c d) r s = b * det p q r s ∧
      det p q (bary p q r s a b c d) s = c * det p q r s ∧ det p q r (bary p q r s a b c d) = d * det p q r s := by
    intro a b c d hs
    have : a = 1 - b - c - d := by linarith
    subst this
    simp only [det, bary]
    refine ⟨?_, ?_, ?_⟩ <;> ring
  obtain ⟨k1, k2, k3⟩ := key hs
  obtain ⟨k1', k2', k3'⟩ := key hs'
  rw [h] at k1 k2 k3
  have e1 : b = b' := mul_right_cancel₀ hd (k1.symm.trans k1')
  have e2 : c = c' := mul_right_cancel₀ hd (k2.symm.trans k2')
  have e3 : d = d' := mul_right_cancel₀ hd (k3.symm.trans k3')
  exact ⟨by linarith, e1, e2, e3⟩

/-- The parts of a tetrahedron do not overlap. -/
theorem part_unique {p q r s x : K × K × K} (hd : det p q r s ≠ 0) {k k' : Tet} (hk : k ∈ tplVols) (hk' : k' ∈ tplVols)
    (h : InOpen (tp p q r s k.a) (tp p q r s k.b) (tp p q r s k.c) (tp p q r s k.d) x)
    (h' : InOpen (tp p q r s k'.a) (tp p q r s k'.b) (tp p q r s k'.c) (tp p q r s k'.d) x) : k = k' := by
  obtain ⟨a, b, c, d, p1, p2, p3, p4, hs, rfl, hc⟩ := open_part p q r s x hk h
  obtain ⟨a', b', c', d', _, _, _, _, hs', he, hc'⟩ := open_part p q r s _ hk' h'
  obtain ⟨rfl, rfl, rfl, rfl⟩ := bary_unique hd hs hs' he
  exact cond_unique ⟨p1, p2, p3, p4⟩ hs hc hc'

theorem fine_cover (h : Conforming m) {t : Tet} (ht : t ∈ m.vols) {x : K × K × K} (hx : InTet m.points t x) :
    ∃ k ∈ (fine srt m).vols, InTet (fine srt m).points k x := by
  obtain ⟨k, hk, hx⟩ := hull_cover _ _ _ _ x hx
  refine ⟨mapV (num m.edges m.points.length t) k, (mem_fine_vols m _).2 ⟨t, ht, List.mem_map_of_mem hk⟩, ?_⟩
  obtain ⟨h1, h2, h3, h4⟩ := part_points (srt := srt) h ht hk
  unfold InTet
  rw [h1, h2, h3, h4]
  exact hx

theorem fine_open (h : Conforming m) {t : Tet} (ht : t ∈ m.vols) {k : Tet} (hk : k ∈ tplVols) {x : K × K × K}
    (hx : InTetOpen (fine srt m).points (mapV (num m.edges m.points.length t) k) x) :
    InOpen (tpt m.points t k.a) (tpt m.points t k.b) (tpt m.points t k.c) (tpt m.points t k.d) x := by
  obtain ⟨h1, h2, h3, h4⟩ := part_points (srt := srt) h ht hk
  unfold InTetOpen at hx
  rwa [h1, h2, h3, h4] at hx

theorem fine_disjoint (h : Conforming m) (hdet : ∀ t ∈ m.vols, volume m.points t ≠ 0)
    (hd : ∀ t ∈ m.vols, ∀ t' ∈ m.vols, ∀ x, InTetOpen m.points t x → InTetOpen m.points t' x → t = t') :
    ∀ k ∈ (fine srt m).vols, ∀ k' ∈ (fine srt m).vols, ∀ x, InTetOpen (fine srt m).points k x →
      InTetOpen (fine srt m).points k' x → k = k' := by
  intro k hk k' hk' x hx hx'
  obtain ⟨t, ht, hk⟩ := (mem_fine_vols m k).1 hk
  obtain ⟨t', ht', hk'⟩ := (mem_fine_vols m k').1 hk'
  obtain ⟨j, hj, rfl⟩ := List.mem_map.1 hk
  obtain ⟨j', hj', rfl⟩ := List.mem_map.1 hk'
  have o := fine_open h ht hj hx
  have o' := fine_open h ht' hj' hx'
  obtain ⟨a, b, c, d, p1, p2, p3, p4, hs, he, _⟩ := open_part _ _ _ _ x hj o
  obtain ⟨a', b', c', d', p1', p2', p3', p4', hs', he', _⟩ := open_part _ _ _ _ x hj' o'
  have htt := hd t ht t' ht' x ⟨a, b, c, d, p1, p2, p3, p4, hs, he⟩ ⟨a', b', c', d', p1', p2', p3', p4', hs', he'⟩
  subst htt
  have hne : det (pt m.points t.a) (pt m.points t.b) (pt m.points t.c) (pt m.points t.d) ≠ 0 := by
    intro hz
    exact hdet t ht (by rw [volume, hz]; simp)
  rw [part_unique hne hj hj' o o']

end
end Verif.TetRefine
