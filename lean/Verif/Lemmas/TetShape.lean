import Verif.Lemmas.TetGeom
/-! Repeated refinement of tetrahedra: levels, the cube, and the lengths of the edges. -/
namespace Verif.TetRefine
open Verif.Spec.TetMesh
open TriRefine hiding Mesh midpoint breakEdges refine refineN inner

section
variable {K : Type} [Field K] {m : Mesh K} {srt : List (Tri × Bd) → List (Tri × Bd)}

/-- The mesh after `k` refinements. -/
def fineN (srt : List (Tri × Bd) → List (Tri × Bd)) : Nat → Mesh K → Mesh K
  | 0, m => m
  | k + 1, m => fineN srt k (fine srt m)

theorem fineN_conforming (hs : IsSort srt) (k : Nat) : ∀ {m : Mesh K}, Conforming m → Conforming (fineN srt k m) := by
  induction k with
  | zero => intro m h; exact h
  | succ k ih => intro m h; exact ih (fine_conforming hs h)

theorem refineN_ok (hs : IsSort srt) (k : Nat) : ∀ {m : Mesh K}, Conforming m →
    refineN srt k m = .ok (fineN srt k m) := by
  induction k with
  | zero => intro m _; rfl
  | succ k ih =>
    intro m h
    rw [refineN, refine_ok hs h, Outcome.bind_ok]
    exact ih (fine_conforming hs h)

theorem fineN_vols_length (k : Nat) : ∀ m : Mesh K, (fineN srt k m).vols.length = 8 ^ k * m.vols.length := by
  induction k with
  | zero => intro m; simp [fineN]
  | succ k ih => intro m; rw [fineN, ih, fine_vols_length, Nat.pow_succ]; ring

theorem fineN_add (j k : Nat) : ∀ m : Mesh K, fineN srt (j + k) m = fineN srt k (fineN srt j m) := by
  induction j with
  | zero => intro m; simp [fineN]
  | succ j ih => intro m; rw [Nat.succ_add, fineN, ih]; rfl

theorem fineN_srt {srt' : List (Tri × Bd) → List (Tri × Bd)} (hs : IsSort srt) (hs' : IsSort srt') (k : Nat) :
    ∀ {m : Mesh K}, Conforming m → fineN srt k m = fineN srt' k m := by
  induction k with
  | zero => intro m _; rfl
  | succ k ih => intro m h; rw [fineN, fineN, fine_srt hs hs' h]; exact ih (fine_conforming hs' h)

end

section
variable {K : Type} [Field K] [LinearOrder K] [IsStrictOrderedRing K]
variable {m : Mesh K} {srt : List (Tri × Bd) → List (Tri × Bd)}

theorem fineN_volume (hs : IsSort srt) (k : Nat) (v : K) : ∀ {m : Mesh K}, Conforming m →
    (∀ t ∈ m.vols, volume m.points t = v) → ∀ t ∈ (fineN srt k m).vols, volume (fineN srt k m).points t = v / 8 ^ k := by
  induction k generalizing v with
  | zero => intro m _ hv t ht; rw [fineN, pow_zero, div_one]; exact hv t ht
  | succ k ih =>
    intro m h hv t ht
    have := ih (v / 8) (fine_conforming hs h) (by
      intro k' hk'
      obtain ⟨t', ht', hk'⟩ := (mem_fine_vols m k').1 hk'
      rw [part_volume h ht' hk', hv t' ht']) t ht
    rw [fineN, this, pow_succ]
    field_simp

theorem fineN_totalVolume (hs : IsSort srt) (k : Nat) : ∀ {m : Mesh K}, Conforming m →
    totalVolume (fineN srt k m) = totalVolume m := by
  induction k with
  | zero => intro m _; rfl
  | succ k ih => intro m h; rw [fineN, ih (fine_conforming hs h), fine_totalVolume h]

theorem fineN_nonzero (hs : IsSort srt) (k : Nat) : ∀ {m : Mesh K}, Conforming m →
    (∀ t ∈ m.vols, volume m.points t ≠ 0) → ∀ t ∈ (fineN srt k m).vols, volume (fineN srt k m).points t ≠ 0 := by
  induction k with
  | zero => intro m _ hv t ht; exact hv t ht
  | succ k ih =>
    intro m h hv t ht
    refine ih (fine_conforming hs h) (fun k' hk' => ?_) t ht
    obtain ⟨t', ht', hk'⟩ := (mem_fine_vols m k').1 hk'
    rw [part_volume h ht' hk']
    exact div_ne_zero (hv t' ht') (by norm_num)

/-! ### Partition -/

theorem fineN_cover (hs : IsSort srt) (k : Nat) : ∀ {m : Mesh K}, Conforming m → ∀ x : K × K × K,
    ((∃ t ∈ (fineN srt k m).vols, InTet (fineN srt k m).points t x) ↔ ∃ t ∈ m.vols, InTet m.points t x) := by
  induction k with
  | zero => intro m _ x; rfl
  | succ k ih =>
    intro m h x
    refine (ih (fine_conforming hs h) x).trans ⟨?_, ?_⟩
    · rintro ⟨k', hk', hx⟩
      obtain ⟨t, ht, hk'⟩ := (mem_fine_vols m k').1 hk'
      obtain ⟨j, hj, rfl⟩ := List.mem_map.1 hk'
      refine ⟨t, ht, ?_⟩
      obtain ⟨h1, h2, h3, h4⟩ := part_points (srt := srt) h ht hj
      unfold InTet at hx
      rw [h1, h2, h3, h4] at hx
      exact hull_part _ _ _ _ x hj hx
    · rintro ⟨t, ht, hx⟩
      exact fine_cover h ht hx

theorem fineN_disjoint (hs : IsSort srt) (k : Nat) : ∀ {m : Mesh K}, Conforming m →
    (∀ t ∈ m.vols, volume m.points t ≠ 0) →
    (∀ t ∈ m.vols, ∀ t' ∈ m.vols, ∀ x, InTetOpen m.points t x → InTetOpen m.points t' x → t = t') →
    ∀ t ∈ (fineN srt k m).vols, ∀ t' ∈ (fineN srt k m).vols, ∀ x, InTetOpen (fineN srt k m).points t x →
      InTetOpen (fineN srt k m).points t' x → t = t' := by
  induction k with
  | zero => intro m _ _ h; exact h
  | succ k ih =>
    intro m h hv hd
    exact ih (fine_conforming hs h) (fineN_nonzero hs 1 h hv) (fine_disjoint h hv hd)

theorem cube_vols : cube.vols =
    [⟨0, 1, 3, 7⟩, ⟨0, 1, 4, 7⟩, ⟨1, 2, 3, 7⟩, ⟨1, 2, 6, 7⟩, ⟨1, 4, 5, 7⟩, ⟨1, 5, 6, 7⟩] := by decide +kernel

theorem mesh0_volume : ∀ t ∈ (mesh0 K).vols, volume (mesh0 K).points t = 1 / 6 := by
  intro t ht
  have : t ∈ cube.vols := ht
  rw [cube_vols] at this
  simp only [List.mem_cons, List.not_mem_nil, or_false] at this
  rcases this with rfl | rfl | rfl | rfl | rfl | rfl <;> simp [volume, pt, det, mesh0]

theorem mesh0_cover (x : K × K × K) : (∃ t ∈ (mesh0 K).vols, InTet (mesh0 K).points t x) ↔
    ((0 ≤ x.1 ∧ x.1 ≤ 1) ∧ (0 ≤ x.2.1 ∧ x.2.1 ≤ 1) ∧ 0 ≤ x.2.2 ∧ x.2.2 ≤ 1) := by
  obtain ⟨x, y, z⟩ := x
  change (∃ t ∈ cube.vols, _) ↔ _
  rw [cube_vols]
  constructor
  · rintro ⟨t, ht, l0, l1, l2, l3, p0, p1, p2, p3, hs, he⟩
    simp only [List.mem_cons, List.not_mem_nil, or_false] at ht
    rcases ht with rfl | rfl | rfl | rfl | rfl | rfl <;>
      simp [mesh0, pt, bary] at he <;> obtain ⟨rfl, rfl, rfl⟩ := he <;> dsimp only <;>
      refine ⟨⟨?_, ?_⟩, ⟨?_, ?_⟩, ?_, ?_⟩ <;> linarith
  · rintro ⟨⟨x0, x1⟩, ⟨y0, y1⟩, z0, z1⟩
    dsimp only at x0 x1 y0 y1 z0 z1
    have fin : ∀ (t : Tet) (l0 l1 l2 l3 : K), t ∈ [(⟨0, 1, 3, 7⟩ : Tet), ⟨0, 1, 4, 7⟩, ⟨1, 2, 3, 7⟩, ⟨1, 2, 6, 7⟩, ⟨1, 4, 5, 7⟩, ⟨1, 5, 6, 7⟩] →
        0 ≤ l0 → 0 ≤ l1 → 0 ≤ l2 → 0 ≤ l3 → l0 + l1 + l2 + l3 = 1 →
        (x, y, z) = bary (pt (mesh0 K).points t.a) (pt (mesh0 K).points t.b) (pt (mesh0 K).points t.c)
          (pt (mesh0 K).points t.d) l0 l1 l2 l3 →
        ∃ t ∈ [(⟨0, 1, 3, 7⟩ : Tet), ⟨0, 1, 4, 7⟩, ⟨1, 2, 3, 7⟩, ⟨1, 2, 6, 7⟩, ⟨1, 4, 5, 7⟩, ⟨1, 5, 6, 7⟩],
          InTet (mesh0 K).points t (x, y, z) :=
      fun t l0 l1 l2 l3 ht h0 h1 h2 h3 hs he => ⟨t, ht, l0, l1, l2, l3, h0, h1, h2, h3, hs, he⟩
    rcases le_total y z with hyz | hyz <;> rcases le_total (1 - x) y with hxy | hxy <;>
      rcases le_total (1 - x) z with hxz | hxz
    · -- u ≤ y ≤ z : 1,5,6,7 weights 1-z, z-y, y-u, u
      refine fin ⟨1, 5, 6, 7⟩ (1 - z) (z - y) (y - (1 - x)) (1 - x) (by decide) ?_ ?_ ?_ ?_ (by ring) ?_ <;>
        first | linarith | (simp [mesh0, pt, bary])
    · -- u ≤ y ≤ z ≤ u
      refine fin ⟨1, 5, 6, 7⟩ (1 - z) (z - y) (y - (1 - x)) (1 - x) (by decide) ?_ ?_ ?_ ?_ (by ring) ?_ <;>
        first | linarith | (simp [mesh0, pt, bary])
    · -- y ≤ u ≤ z : 1,5,4,7
      refine fin ⟨1, 4, 5, 7⟩ (1 - z) ((1 - x) - y) (z - (1 - x)) y (by decide) ?_ ?_ ?_ ?_ (by ring) ?_ <;>
        first | linarith | (simp [mesh0, pt, bary])
    · -- y ≤ z ≤ u : 1,0,4,7
      refine fin ⟨0, 1, 4, 7⟩ ((1 - x) - z) (1 - (1 - x)) (z - y) y (by decide) ?_ ?_ ?_ ?_ (by ring) ?_ <;>
        first | linarith | (simp [mesh0, pt, bary])
    · -- u ≤ z ≤ y : 1,2,6,7
      refine fin ⟨1, 2, 6, 7⟩ (1 - y) (y - z) (z - (1 - x)) (1 - x) (by decide) ?_ ?_ ?_ ?_ (by ring) ?_ <;>
        first | linarith | (simp [mesh0, pt, bary])
    · -- z ≤ u ≤ y : 1,2,3,7
      refine fin ⟨1, 2, 3, 7⟩ (1 - y) (y - (1 - x)) ((1 - x) - z) z (by decide) ?_ ?_ ?_ ?_ (by ring) ?_ <;>
        first | linarith | (simp [mesh0, pt, bary])
    · -- y ≤ u ≤ z ≤ y
      refine fin ⟨0, 1, 3, 7⟩ ((1 - x) - y) (1 - (1 - x)) (y - z) z (by decide) ?_ ?_ ?_ ?_ (by ring) ?_ <;>
        first | linarith | (simp [mesh0, pt, bary])
    · -- z ≤ y ≤ u : 1,0,3,7
      refine fin ⟨0, 1, 3, 7⟩ ((1 - x) - y) (1 - (1 - x)) (y - z) z (by decide) ?_ ?_ ?_ ?_ (by ring) ?_ <;>
        first | linarith | (simp [mesh0, pt, bary])

theorem mesh0_disjoint : ∀ t ∈ (mesh0 K).vols, ∀ t' ∈ (mesh0 K).vols, ∀ x, InTetOpen (mesh0 K).points t x →
    InTetOpen (mesh0 K).points t' x → t = t' := by
  change ∀ t ∈ cube.vols, ∀ t' ∈ cube.vols, _
  rw [cube_vols]
  rintro t ht t' ht' x ⟨l0, l1, l2, l3, p0, p1, p2, p3, hs, he⟩ ⟨k0, k1, k2, k3, q0, q1, q2, q3, hs', he'⟩
  subst he
  simp only [List.mem_cons, List.not_mem_nil, or_false] at ht ht'
  rcases ht with rfl | rfl | rfl | rfl | rfl | rfl <;> rcases ht' with rfl | rfl | rfl | rfl | rfl | rfl <;>
    first
    | rfl
    | (exfalso
       simp [mesh0, pt, bary] at he'
       obtain ⟨e1, e2, e3⟩ := he'
       linarith)

/-! ### Lengths -/

/-- Every edge of every tetrahedron has squared length at most `H`. -/
def Small (m : Mesh K) (H : K) : Prop := ∀ t ∈ m.vols, ∀ e ∈ edges t, len2 m.points e ≤ H

/-- The edges of the parts other than the diagonal. -/
def tplShort : List Edge := [⟨0, 4⟩, ⟨0, 5⟩, ⟨0, 6⟩, ⟨1, 4⟩, ⟨1, 7⟩, ⟨1, 8⟩, ⟨2, 5⟩, ⟨2, 7⟩, ⟨2, 9⟩, ⟨3, 6⟩, ⟨3, 8⟩,
  ⟨3, 9⟩, ⟨4, 5⟩, ⟨4, 6⟩, ⟨5, 6⟩, ⟨4, 7⟩, ⟨4, 8⟩, ⟨7, 8⟩, ⟨5, 7⟩, ⟨5, 9⟩, ⟨7, 9⟩, ⟨6, 8⟩, ⟨6, 9⟩, ⟨8, 9⟩]

theorem part_edges : ∀ k ∈ tplVols, ∀ e ∈ edges k, e = ⟨5, 8⟩ ∨ e ∈ tplShort := by decide +kernel

theorem part_opposite : ∀ k ∈ tplVols, (⟨k.a, k.b⟩ : Edge) ∈ tplShort ∨ (⟨k.c, k.d⟩ : Edge) ∈ tplShort := by
  decide +kernel

theorem short_le {p q r s : K × K × K} {H : K} (h : dist2 p q ≤ H ∧ dist2 p r ≤ H ∧ dist2 p s ≤ H ∧ dist2 q r ≤ H ∧
    dist2 q s ≤ H ∧ dist2 r s ≤ H) {e : Edge} (he : e ∈ tplShort) :
    dist2 (tp p q r s e.a) (tp p q r s e.b) ≤ H / 4 := by
  obtain ⟨h1, h2, h3, h4, h5, h6⟩ := h
  simp only [tplShort, List.mem_cons, List.not_mem_nil, or_false] at he
  simp only [dist2] at h1 h2 h3 h4 h5 h6
  rcases he with rfl | rfl | rfl | rfl | rfl | rfl | rfl | rfl | rfl | rfl | rfl | rfl | rfl | rfl | rfl | rfl | rfl |
    rfl | rfl | rfl | rfl | rfl | rfl | rfl <;> simp only [dist2, tp, midpoint] <;> linarith

theorem diagonal_le {p q r s : K × K × K} : dist2 (midpoint p r) (midpoint q s) ≤ (dist2 p q + dist2 r s) / 2 ∧
    dist2 (midpoint p r) (midpoint q s) ≤ 3 / 8 * dist2 p q + 3 / 4 * dist2 r s ∧
    dist2 (midpoint p r) (midpoint q s) ≤ 3 / 4 * dist2 p q + 3 / 8 * dist2 r s := by
  have key : ∀ u v : K, ((u + v) / 2) ^ 2 ≤ (u ^ 2 + v ^ 2) / 2 ∧ ((u + v) / 2) ^ 2 ≤ 3 / 8 * u ^ 2 + 3 / 4 * v ^ 2 ∧
      ((u + v) / 2) ^ 2 ≤ 3 / 4 * u ^ 2 + 3 / 8 * v ^ 2 := by
    intro u v
    have a1 := sq_nonneg (u - v)
    have a2 := sq_nonneg (u - 2 * v)
    have a3 := sq_nonneg (2 * u - v)
    refine ⟨?_, ?_, ?_⟩ <;> nlinarith
  have e : ∀ a b c d : K, (b + d) / 2 - (a + c) / 2 = ((b - a) + (d - c)) / 2 := by intros; ring
  obtain ⟨x1, x2, x3⟩ := key (q.1 - p.1) (s.1 - r.1)
  obtain ⟨y1, y2, y3⟩ := key (q.2.1 - p.2.1) (s.2.1 - r.2.1)
  obtain ⟨z1, z2, z3⟩ := key (q.2.2 - p.2.2) (s.2.2 - r.2.2)
  simp only [dist2, midpoint, e]
  refine ⟨?_, ?_, ?_⟩ <;> linarith

theorem len_part (h : Conforming m) {t : Tet} (ht : t ∈ m.vols) {k : Tet} (hk : k ∈ tplVols) {e : Edge}
    (he : e ∈ edges (mapV (num m.edges m.points.length t) k)) :
    ∃ e' ∈ edges k, e = mapE (num m.edges m.points.length t) e' ∧
      len2 (fine srt m).points e = dist2 (tpt m.points t e'.a) (tpt m.points t e'.b) := by
  have hm : edges (mapV (num m.edges m.points.length t) k) = (edges k).map (mapE (num m.edges m.points.length t)) := rfl
  rw [hm] at he
  obtain ⟨e', he', rfl⟩ := List.mem_map.1 he
  have hle : ∀ k ∈ tplVols, ∀ e ∈ edges k, e.a ≤ 9 ∧ e.b ≤ 9 := by decide +kernel
  obtain ⟨l1, l2⟩ := hle k hk e' he'
  refine ⟨e', he', rfl, ?_⟩
  unfold len2
  rw [show (mapE (num m.edges m.points.length t) e').a = num m.edges m.points.length t e'.a from rfl,
    show (mapE (num m.edges m.points.length t) e').b = num m.edges m.points.length t e'.b from rfl,
    fine_point h ht l1, fine_point h ht l2]

theorem small_six {H : K} (hm : Small m H) {t : Tet} (ht : t ∈ m.vols) :
    dist2 (pt m.points t.a) (pt m.points t.b) ≤ H ∧ dist2 (pt m.points t.a) (pt m.points t.c) ≤ H ∧
    dist2 (pt m.points t.a) (pt m.points t.d) ≤ H ∧ dist2 (pt m.points t.b) (pt m.points t.c) ≤ H ∧
    dist2 (pt m.points t.b) (pt m.points t.d) ≤ H ∧ dist2 (pt m.points t.c) (pt m.points t.d) ≤ H := by
  have := hm t ht
  exact ⟨this ⟨t.a, t.b⟩ (by simp [edges]), this ⟨t.a, t.c⟩ (by simp [edges]), this ⟨t.a, t.d⟩ (by simp [edges]),
    this ⟨t.b, t.c⟩ (by simp [edges]), this ⟨t.b, t.d⟩ (by simp [edges]), this ⟨t.c, t.d⟩ (by simp [edges])⟩

theorem fine_small (h : Conforming m) {H : K} (hH : 0 ≤ H) (hm : Small m H) : Small (fine srt m) H := by
  intro k hk e he
  obtain ⟨t, ht, hk⟩ := (mem_fine_vols m k).1 hk
  obtain ⟨j, hj, rfl⟩ := List.mem_map.1 hk
  obtain ⟨e', he', -, hl⟩ := len_part (srt := srt) h ht hj he
  rw [hl]
  have h6 := small_six hm ht
  rcases part_edges j hj e' he' with rfl | hs
  · have := (diagonal_le (p := pt m.points t.a) (q := pt m.points t.b) (r := pt m.points t.c) (s := pt m.points t.d)).1
    refine le_trans this ?_
    linarith [h6.1, h6.2.2.2.2.2]
  · exact le_trans (short_le h6 hs) (by linarith)

theorem fine_two (hs : IsSort srt) (h : Conforming m) {H : K} (hH : 0 ≤ H) (hm : Small m H) :
    Small (fine srt (fine srt m)) (9 / 16 * H) := by
  have hc := fine_conforming hs h
  have h1 := fine_small (srt := srt) h hH hm
  intro k hk e he
  obtain ⟨t, ht, hk⟩ := (mem_fine_vols (fine srt m) k).1 hk
  obtain ⟨j, hj, rfl⟩ := List.mem_map.1 hk
  obtain ⟨e', he', -, hl⟩ := len_part (srt := srt) hc ht hj he
  rw [hl]
  have h6 := small_six h1 ht
  rcases part_edges j hj e' he' with rfl | hsh
  · obtain ⟨-, d2, d3⟩ := diagonal_le (p := pt (fine srt m).points t.a) (q := pt (fine srt m).points t.b)
      (r := pt (fine srt m).points t.c) (s := pt (fine srt m).points t.d)
    obtain ⟨t0, ht0, htp⟩ := (mem_fine_vols m t).1 ht
    obtain ⟨i, hi, rfl⟩ := List.mem_map.1 htp
    have h60 := small_six hm ht0
    obtain ⟨p1, p2, p3, p4⟩ := part_points (srt := srt) h ht0 hi
    rcases part_opposite i hi with hq | hq
    · have := short_le h60 hq
      change dist2 (tpt m.points t0 i.a) (tpt m.points t0 i.b) ≤ H / 4 at this
      rw [← p1, ← p2] at this
      refine le_trans d3 ?_
      linarith [h6.2.2.2.2.2]
    · have := short_le h60 hq
      change dist2 (tpt m.points t0 i.c) (tpt m.points t0 i.d) ≤ H / 4 at this
      rw [← p3, ← p4] at this
      refine le_trans d2 ?_
      linarith [h6.1]
  · exact le_trans (short_le h6 hsh) (by linarith)

theorem fineN_small (hs : IsSort srt) (k : Nat) {H : K} (hH : 0 ≤ H) : ∀ {m : Mesh K}, Conforming m → Small m H →
    Small (fineN srt (2 * k) m) ((9 / 16) ^ k * H) := by
  induction k generalizing H with
  | zero => intro m _ hm; simpa [fineN] using hm
  | succ k ih =>
    intro m h hm
    have := ih (H := 9 / 16 * H) (by linarith) (fine_conforming hs (fine_conforming hs h)) (fine_two hs h hH hm)
    rw [show 2 * (k + 1) = 2 * k + 1 + 1 by ring, fineN, fineN, pow_succ, mul_assoc]
    exact this

theorem mesh0_small : Small (mesh0 K) 3 := by
  change ∀ t ∈ cube.vols, _
  rw [cube_vols]
  intro t ht e he
  simp only [List.mem_cons, List.not_mem_nil, or_false] at ht
  rcases ht with rfl | rfl | rfl | rfl | rfl | rfl <;>
    simp only [edges, List.mem_cons, List.not_mem_nil, or_false] at he <;>
    rcases he with rfl | rfl | rfl | rfl | rfl | rfl <;> simp [len2, dist2, pt, mesh0] <;> norm_num

/-! ### Degeneration -/

/-- Some tetrahedron whose vertices have the `y` coordinates described. -/
def Grow (m : Mesh K) (c x y z : K) : Prop :=
  ∃ t ∈ m.vols, (pt m.points t.b).2.1 - (pt m.points t.a).2.1 = c * x ∧
    (pt m.points t.c).2.1 - (pt m.points t.a).2.1 = c * z ∧
    (pt m.points t.d).2.1 - (pt m.points t.a).2.1 = c * (z - y)

theorem grow_step (hs : IsSort srt) (h : Conforming m) {c x y z : K} (hg : Grow m c x y z) :
    Grow (fine srt (fine srt m)) (-c / 4) y z (x + y) := by
  obtain ⟨t, ht, e1, e2, e3⟩ := hg
  have hc := fine_conforming hs h
  have k1 : (⟨1, 4, 7, 8⟩ : Tet) ∈ tplVols := by decide
  have k2 : (⟨5, 6, 8, 9⟩ : Tet) ∈ tplVols := by decide
  have ht1 : mapV (num m.edges m.points.length t) ⟨1, 4, 7, 8⟩ ∈ (fine srt m).vols :=
    (mem_fine_vols m _).2 ⟨t, ht, List.mem_map_of_mem k1⟩
  obtain ⟨p1, p2, p3, p4⟩ := part_points (srt := srt) h ht k1
  obtain ⟨q1, q2, q3, q4⟩ := part_points (srt := srt) hc ht1 k2
  refine ⟨_, (mem_fine_vols (fine srt m) _).2 ⟨_, ht1, List.mem_map_of_mem k2⟩, ?_⟩
  rw [q1, q2, q3, q4]
  simp only [tpt] at p1 p2 p3 p4 ⊢
  rw [p1, p2, p3, p4]
  simp only [tp, midpoint]
  generalize (pt m.points t.a).2.1 = a at *
  generalize (pt m.points t.b).2.1 = b at *
  generalize (pt m.points t.c).2.1 = d at *
  generalize (pt m.points t.d).2.1 = f at *
  refine ⟨?_, ?_, ?_⟩ <;> linarith

theorem grow_six (hs : IsSort srt) (h : Conforming m) {c x y z : K} (hg : Grow m c x y z) :
    Grow (fineN srt 6 m) (-c / 64) (x + y) (y + z) (x + y + z) := by
  have h2 := fineN_conforming hs 2 h
  have h4 := fineN_conforming hs 4 h
  have g := grow_step hs h4 (grow_step hs h2 (grow_step hs h hg))
  convert g using 1
  · rfl
  · ring
  · ring

theorem grow_cube (hs : IsSort srt) (j : Nat) : ∃ c x y z : K, |c| = 1 / 2 ^ (4 + 6 * j) ∧ 2 ^ j ≤ x ∧ 2 ^ j ≤ y ∧ 2 ^ j ≤ z ∧
    Grow (fineN srt (4 + 6 * j) (mesh0 K)) c x y z := by
  induction j with
  | zero =>
    have h0 := mesh0_conforming K
    have g0 : Grow (mesh0 K) 1 1 0 1 := by
      refine ⟨⟨1, 2, 3, 7⟩, ?_, ?_⟩
      · change _ ∈ cube.vols
        rw [cube_vols]; decide
      · simp [pt, mesh0]
    have g := grow_step hs (fineN_conforming hs 2 h0) (grow_step hs h0 g0)
    refine ⟨_, _, _, _, ?_, ?_, ?_, ?_, g⟩
    · norm_num
    · norm_num
    · norm_num
    · norm_num
  | succ j ih =>
    obtain ⟨c, x, y, z, hc, hx, hy, hz, g⟩ := ih
    have g' := grow_six hs (fineN_conforming hs _ (mesh0_conforming K)) g
    rw [← fineN_add] at g'
    refine ⟨_, _, _, _, ?_, ?_, ?_, ?_, g'⟩
    · rw [abs_div, abs_neg, hc, abs_of_pos (show (0 : K) < 64 by norm_num),
        show 4 + 6 * (j + 1) = 4 + 6 * j + 6 by ring, pow_add _ (4 + 6 * j) 6]
      field_simp
      norm_num
    · rw [pow_succ]; linarith
    · rw [pow_succ]; linarith
    · rw [pow_succ]
      have : (0 : K) ≤ 2 ^ j := by positivity
      linarith

/-- A long edge at level `4 + 6 j`. -/
theorem long_edge (hs : IsSort srt) (j : Nat) : ∃ t ∈ (fineN srt (4 + 6 * j) (mesh0 K)).vols,
    4 ^ j / 4 ^ (4 + 6 * j) ≤ len2 (fineN srt (4 + 6 * j) (mesh0 K)).points ⟨t.a, t.b⟩ := by
  obtain ⟨c, x, y, z, hc, hx, -, -, t, ht, e, -⟩ := grow_cube (K := K) hs j
  refine ⟨t, ht, ?_⟩
  have h1 : (4 : K) ^ j / 4 ^ (4 + 6 * j) = c ^ 2 * (2 ^ j) ^ 2 := by
    have h4 : (4 : K) = 2 ^ 2 := by norm_num
    rw [← sq_abs c, hc, h4, ← pow_mul, ← pow_mul, mul_comm 2 j, mul_comm 2 (4 + 6 * j), pow_mul, pow_mul, div_pow, one_pow]
    field_simp
  rw [h1]
  have h2 : ((2 : K) ^ j) ^ 2 ≤ x ^ 2 := pow_le_pow_left₀ (by positivity) hx 2
  have h3 : c ^ 2 * (2 ^ j) ^ 2 ≤ (c * x) ^ 2 := by
    rw [mul_pow]; exact mul_le_mul_of_nonneg_left h2 (sq_nonneg c)
  refine le_trans h3 ?_
  rw [← e]
  unfold len2 dist2
  dsimp only
  nlinarith [sq_nonneg ((pt (fineN srt (4 + 6 * j) (mesh0 K)).points t.b).1 - (pt (fineN srt (4 + 6 * j) (mesh0 K)).points t.a).1),
    sq_nonneg ((pt (fineN srt (4 + 6 * j) (mesh0 K)).points t.b).2.2 - (pt (fineN srt (4 + 6 * j) (mesh0 K)).points t.a).2.2)]

/-! ### Sides of the cube -/

theorem onSide_mid {i : Nat} {p q : K × K × K} (hp : OnSide i p) (hq : OnSide i q) : OnSide i (midpoint p q) := by
  unfold OnSide at *
  split at hp <;> first | exact hp.elim | (simp only [midpoint]; rw [hp, hq]; norm_num)

theorem fine_sides (hs : IsSort srt) (h : Conforming m) (hm : SidesOk m) : SidesOk (fine srt m) := by
  intro x hx hb
  have hx' : x ∈ newSurfaces m := (unique_srt hs (newSurfaces m)).2.2 x hx
  rcases (mem_newSurfaces h x).1 hx' with ⟨y, hy, hk, hbd⟩ | ⟨t, ht, hi, hbd⟩
  · obtain ⟨o1, o2, o3⟩ := hm y hy (hbd ▸ hb)
    have hf := face_ok h (List.mem_map_of_mem hy)
    have l3 := hf.h3
    have l2 := hf.h2
    have l1 := hf.h1
    have eab := fine_point_mid (srt := srt) h hf.e1
    have eac := fine_point_mid (srt := srt) h hf.e3
    have ebc := fine_point_mid (srt := srt) h hf.e2
    have mab := onSide_mid o1 o2
    have mac := onSide_mid o1 o3
    have mbc := onSide_mid o2 o3
    rw [hbd]
    simp only [kids, List.mem_cons, List.not_mem_nil, or_false] at hk
    rcases hk with hk | hk | hk | hk <;> rw [hk] <;> dsimp only
    · rw [fine_point_old (by omega), eab, eac]; exact ⟨o1, mab, mac⟩
    · rw [fine_point_old (by omega), eab, ebc]; exact ⟨o2, mab, mbc⟩
    · rw [fine_point_old (by omega), eac, ebc]; exact ⟨o3, mac, mbc⟩
    · rw [eab, eac, ebc]; exact ⟨mab, mac, mbc⟩
  · rw [hbd] at hb
    cases hb

theorem fineN_sides (hs : IsSort srt) (k : Nat) : ∀ {m : Mesh K}, Conforming m → SidesOk m → SidesOk (fineN srt k m) := by
  induction k with
  | zero => intro m _ h; exact h
  | succ k ih => intro m h hm; exact ih (fine_conforming hs h) (fine_sides hs h hm)

theorem mesh0_sides : SidesOk (mesh0 K) := by
  change ∀ x ∈ surf0, _
  intro x hx
  simp only [surf0, List.mem_cons, List.not_mem_nil, or_false] at hx
  rcases hx with rfl | rfl | rfl | rfl | rfl | rfl | rfl | rfl | rfl | rfl | rfl | rfl | rfl | rfl | rfl | rfl | rfl |
    rfl <;> simp [OnSide, pt, mesh0]

/-- Number of boundary faces. -/
theorem fine_boundary_count (hs : IsSort srt) (h : Conforming m) :
    (fine srt m).surfaces.countP (fun x => x.2.bnd) = 4 * m.surfaces.countP (fun x => x.2.bnd) := by
  have h1 := face_count (fine_conforming hs h)
  have h2 := face_count h
  have h3 := fine_surfaces_length hs h
  have h4 := fine_vols_length (srt := srt) m
  omega

theorem fineN_boundary_count (hs : IsSort srt) (k : Nat) : ∀ {m : Mesh K}, Conforming m →
    (fineN srt k m).surfaces.countP (fun x => x.2.bnd) = 4 ^ k * m.surfaces.countP (fun x => x.2.bnd) := by
  induction k with
  | zero => intro m _; simp [fineN]
  | succ k ih => intro m h; rw [fineN, ih (fine_conforming hs h), fine_boundary_count hs h, pow_succ]; ring

end
end Verif.TetRefine
