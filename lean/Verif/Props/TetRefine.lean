import Verif.Lemmas.TetShape
import Mathlib.Algebra.Order.Archimedean.Basic
import Mathlib.Algebra.Order.Ring.Rat
/-!
C78–C81: the tetrahedral mesher and its refinement.
-/
namespace Verif.Props.TetRefine
open Verif.TetRefine Verif.Spec.TetMesh
open Verif.TriRefine hiding Mesh midpoint breakEdges refine refineN inner

section
variable {K : Type} [Field K] {srt : List (Tri × Bd) → List (Tri × Bd)}

/-- C78: the constructor succeeds and gives a conforming mesh of six tetrahedra. -/
theorem c78_initial (hs : IsSort srt) :
    ∃ m : Mesh K, init srt = .ok m ∧ Conforming m ∧ m.points.length = 8 ∧ m.edges.length = 19 ∧
      m.surfaces.length = 18 ∧ m.vols.length = 6 ∧ m.surfaces.countP (fun x => x.2.bnd) = 12 :=
  ⟨mesh0 K, init_ok K hs, mesh0_conforming K, rfl, (by decide +kernel : (sortEdges cube.edges).length = 19), rfl,
    (by decide +kernel : cube.vols.length = 6), (by decide +kernel : surf0.countP (fun x => x.2.bnd) = 12)⟩

/-- C78: one refinement of a conforming mesh succeeds (no exception, no failing assertion), the result is
conforming, and the numbers of elements are as expected. -/
theorem c78_refine (hs : IsSort srt) (m : Mesh K) (h : Conforming m) :
    ∃ m', refine srt m = .ok m' ∧ Conforming m' ∧ m'.vols.length = 8 * m.vols.length ∧
      m'.surfaces.length = 16 * m.vols.length + 2 * m.surfaces.countP (fun x => x.2.bnd) ∧
      m'.surfaces.countP (fun x => x.2.bnd) = 4 * m.surfaces.countP (fun x => x.2.bnd) ∧
      m'.points.length = m.points.length + m.edges.length := by
  refine ⟨fine srt m, refine_ok hs h, fine_conforming hs h, fine_vols_length m, ?_, ?_, ?_⟩
  · have := face_count h
    rw [fine_surfaces_length hs h]; omega
  · have h1 := face_count (fine_conforming hs h)
    have h2 := face_count h
    have h3 := fine_surfaces_length hs h
    have h4 := fine_vols_length (srt := srt) m
    omega
  · change (m.points ++ TetRefine.mids m.points m.edges).length = _
    rw [List.length_append, TetRefine.mids, List.length_map]

/-- C78: every face of the refined mesh is one of the four parts of an old face, in which case it has
the descriptor of that face, or an internal face whose vertices are midpoints of edges. -/
theorem c78_boundary (hs : IsSort srt) (m : Mesh K) (h : Conforming m) :
    ∃ m', refine srt m = .ok m' ∧ ∀ x ∈ m'.surfaces,
      (∃ y ∈ m.surfaces, x.2 = y.2 ∧ ∃ u v w : Nat,
        pt m'.points u = midpoint (pt m.points y.1.a) (pt m.points y.1.b) ∧
        pt m'.points v = midpoint (pt m.points y.1.a) (pt m.points y.1.c) ∧
        pt m'.points w = midpoint (pt m.points y.1.b) (pt m.points y.1.c) ∧
        (x.1 = ⟨y.1.a, u, v⟩ ∨ x.1 = ⟨y.1.b, u, w⟩ ∨ x.1 = ⟨y.1.c, v, w⟩ ∨ x.1 = ⟨u, v, w⟩)) ∨
      (x.2 = ⟨0, false⟩ ∧ m.points.length ≤ x.1.a) := by
  refine ⟨fine srt m, refine_ok hs h, ?_⟩
  intro x hx
  have hx' : x ∈ newSurfaces m := (unique_srt hs (newSurfaces m)).2.2 x hx
  rcases (mem_newSurfaces h x).1 hx' with ⟨y, hy, hk, hbd⟩ | ⟨t, ht, hi, hbd⟩
  · have hf := face_ok h (List.mem_map_of_mem hy)
    refine .inl ⟨y, hy, hbd, mp m.edges m.points.length (ab y.1), mp m.edges m.points.length (ac y.1),
      mp m.edges m.points.length (bc y.1), fine_point_mid h hf.e1, fine_point_mid h hf.e3, fine_point_mid h hf.e2, ?_⟩
    simpa [kids] using hk
  · refine .inr ⟨hbd, ?_⟩
    obtain ⟨f, hf, hx⟩ := List.mem_map.1 hi
    have h4 : ∀ f ∈ tplInt, 4 ≤ f.a := by decide +kernel
    have h9 : ∀ f ∈ tplInt, f.a ≤ 9 := by decide +kernel
    rw [← hx]
    change m.points.length ≤ num m.edges m.points.length t f.a
    have a4 := h4 f hf
    have a9 := h9 f hf
    generalize f.a = i at a4 a9
    have : i = 4 ∨ i = 5 ∨ i = 6 ∨ i = 7 ∨ i = 8 ∨ i = 9 := by omega
    rcases this with rfl | rfl | rfl | rfl | rfl | rfl <;> exact Nat.le_add_left _ _

/-- C78: the result does not depend on how the sort orders equal faces. -/
theorem c78_sort_independent {srt' : List (Tri × Bd) → List (Tri × Bd)} (hs : IsSort srt) (hs' : IsSort srt') :
    (init srt : Outcome (Mesh K)) = init srt' ∧
    ∀ (k : Nat) (m : Mesh K), Conforming m → refineN srt k m = refineN srt' k m :=
  ⟨by rw [init_ok K hs, init_ok K hs'],
    fun k _ h => by rw [refineN_ok hs k h, refineN_ok hs' k h, fineN_srt hs hs' k h]⟩

end

section
variable {K : Type} [Field K] [LinearOrder K] [IsStrictOrderedRing K]
variable {srt : List (Tri × Bd) → List (Tri × Bd)}

/-- C78: after any number of refinements of the first mesh, the mesh is conforming, has `6·8^k`
tetrahedra and `12·4^k` boundary faces, and every boundary face lies on the side of the cube whose
number it carries. -/
theorem c78_levels (hs : IsSort srt) (k : Nat) :
    ∃ m : Mesh K, (init srt).bind (refineN srt k) = .ok m ∧ Conforming m ∧ m.vols.length = 6 * 8 ^ k ∧
      m.surfaces.countP (fun x => x.2.bnd) = 12 * 4 ^ k ∧ SidesOk m := by
  refine ⟨fineN srt k (mesh0 K), ?_, fineN_conforming hs k (mesh0_conforming K), ?_, ?_, ?_⟩
  · rw [init_ok K hs, Outcome.bind_ok, refineN_ok hs k (mesh0_conforming K)]
  · rw [fineN_vols_length, show (mesh0 K).vols.length = 6 from (by decide +kernel : cube.vols.length = 6)]; ring
  · rw [fineN_boundary_count hs k (mesh0_conforming K),
      show (mesh0 K).surfaces.countP (fun x => x.2.bnd) = 12 from
        (by decide +kernel : surf0.countP (fun x => x.2.bnd) = 12)]
    ring
  · exact fineN_sides hs k (mesh0_conforming K) mesh0_sides

/-- C79: every tetrahedron is replaced by eight of an eighth of its volume, and the volume of the mesh
does not change. -/
theorem c79_volume (hs : IsSort srt) (m : Mesh K) (h : Conforming m) :
    ∃ m' : Mesh K, refine srt m = .ok m' ∧ totalVolume m' = totalVolume m ∧
      ∃ children : Tet → List Tet, m'.vols.Perm (m.vols.flatMap children) ∧
        ∀ t ∈ m.vols, (children t).length = 8 ∧
          ∀ k ∈ children t, volume m'.points k = volume m.points t / 8 :=
  ⟨fine srt m, refine_ok hs h, fine_totalVolume h, parts m.edges m.points.length, Sort.sortBy_perm _ _,
    fun _ ht => ⟨rfl, fun _ hk => part_volume h ht hk⟩⟩

/-- C79, from the mesher's first mesh: after `k` refinements all tetrahedra have volume `1/(6·8^k)`, and
together they have the volume of the cube. -/
theorem c79_cube (hs : IsSort srt) (k : Nat) :
    ∃ m : Mesh K, (init srt).bind (refineN srt k) = .ok m ∧ (∀ t ∈ m.vols, volume m.points t = 1 / (6 * 8 ^ k)) ∧
      totalVolume m = 1 := by
  have hc := mesh0_conforming K
  refine ⟨fineN srt k (mesh0 K), ?_, ?_, ?_⟩
  · rw [init_ok K hs, Outcome.bind_ok, refineN_ok hs k hc]
  · intro t ht
    rw [fineN_volume hs k (1 / 6) hc mesh0_volume t ht, div_div]
  · rw [fineN_totalVolume hs k hc, totalVolume, List.map_congr_left (g := fun _ => (1 / 6 : K)) mesh0_volume]
    change (1 / 6 : K) + (1 / 6 + (1 / 6 + (1 / 6 + (1 / 6 + (1 / 6 + 0))))) = 1
    norm_num

/-- C80: whatever the mesh, if no edge is longer than `h` (`H = h²`), then no edge of the refined mesh is,
and after two refinements no edge is longer than `3h/4`. -/
theorem c80_length_partial (hs : IsSort srt) (m : Mesh K) (h : Conforming m) (H : K)
    (hH : 0 ≤ H) (hm : ∀ t ∈ m.vols, ∀ e ∈ edges t, len2 m.points e ≤ H) :
    (∃ m', refine srt m = .ok m' ∧ ∀ t ∈ m'.vols, ∀ e ∈ edges t, len2 m'.points e ≤ H) ∧
    (∃ m', refineN srt 2 m = .ok m' ∧ ∀ t ∈ m'.vols, ∀ e ∈ edges t, len2 m'.points e ≤ 9 / 16 * H) :=
  ⟨⟨fine srt m, refine_ok hs h, fine_small h hH hm⟩, ⟨fineN srt 2 m, refineN_ok hs 2 h, fine_two hs h hH hm⟩⟩

/-- C80, from the mesher's first mesh: after `2k` refinements no edge is longer than `√3·(3/4)^k`. -/
theorem c80_cube_partial (hs : IsSort srt) (k : Nat) :
    ∃ m : Mesh K, (init srt).bind (refineN srt (2 * k)) = .ok m ∧
      ∀ t ∈ m.vols, ∀ e ∈ edges t, len2 m.points e ≤ (9 / 16) ^ k * 3 := by
  have hc := mesh0_conforming K
  refine ⟨fineN srt (2 * k) (mesh0 K), ?_, fineN_small hs k (by norm_num) hc mesh0_small⟩
  rw [init_ok K hs, Outcome.bind_ok, refineN_ok hs _ hc]

/-- C80 is violated: at level `4 + 6j` there is a tetrahedron with an edge at least `2^j` times as long
as `2^-(4+6j)`, the volume of the tetrahedron being that of all others, `1/(6·8^(4+6j))`. -/
theorem c80_violation_level (hs : IsSort srt) (j : Nat) :
    ∃ m : Mesh K, (init srt).bind (refineN srt (4 + 6 * j)) = .ok m ∧
      ∃ t ∈ m.vols, ∃ e ∈ edges t, 4 ^ j / 4 ^ (4 + 6 * j) ≤ len2 m.points e ∧
        64 ^ j * (6 * volume m.points t) ^ 2 ≤ len2 m.points e ^ 3 := by
  have hc := mesh0_conforming K
  refine ⟨fineN srt (4 + 6 * j) (mesh0 K), ?_, ?_⟩
  · rw [init_ok K hs, Outcome.bind_ok, refineN_ok hs _ hc]
  · obtain ⟨t, ht, hl⟩ := long_edge (K := K) hs j
    refine ⟨t, ht, ⟨t.a, t.b⟩, by simp [edges], hl, ?_⟩
    have h3 := pow_le_pow_left₀ (by positivity) hl 3
    refine le_trans (le_of_eq ?_) h3
    rw [fineN_volume hs _ (1 / 6) hc mesh0_volume t ht, div_div, div_pow, ← pow_mul, ← pow_mul]
    rw [show (64 : K) = 4 ^ 3 by norm_num, show (8 : K) = 2 ^ 3 by norm_num, show (4 : K) = 2 ^ 2 by norm_num,
      ← pow_mul, ← pow_mul, ← pow_mul, ← pow_mul, ← pow_mul]
    field_simp
    ring

/-- C80 is violated: no constant bounds the longest edge by a multiple of `2^-k`, and no positive
constant bounds the volumes from below by a multiple of the cube of the longest edge. -/
theorem c80_violation [Archimedean K] (hs : IsSort srt) :
    (¬ ∃ C : K, ∀ k m, (init srt).bind (refineN srt k) = .ok m →
      ∀ t ∈ m.vols, ∀ e ∈ edges t, len2 m.points e ≤ C / 4 ^ k) ∧
    (¬ ∃ c : K, 0 < c ∧ ∀ k m, (init srt).bind (refineN srt k) = .ok m →
      ∀ t ∈ m.vols, ∀ e ∈ edges t, c * len2 m.points e ^ 3 ≤ volume m.points t ^ 2) := by
  constructor
  · rintro ⟨C, hC⟩
    obtain ⟨j, hj⟩ := pow_unbounded_of_one_lt C (show (1 : K) < 4 by norm_num)
    obtain ⟨m, hm, t, ht, e, he, hl, -⟩ := c80_violation_level (K := K) hs j
    have := hl.trans (hC _ m hm t ht e he)
    rw [div_le_div_iff_of_pos_right (by positivity)] at this
    exact absurd hj (not_lt.2 this)
  · rintro ⟨c, hc, h⟩
    obtain ⟨j, hj⟩ := pow_unbounded_of_one_lt (1 / c) (show (1 : K) < 64 by norm_num)
    obtain ⟨m, hm, t, ht, e, he, -, hl⟩ := c80_violation_level (K := K) hs j
    have h1 := h _ m hm t ht e he
    obtain ⟨m', hm', hv, -⟩ := c79_cube (K := K) hs (4 + 6 * j)
    rw [hm] at hm'
    cases hm'
    have hpos : 0 < volume m.points t := by rw [hv t ht]; positivity
    have h2 : 1 < 64 ^ j * c := by rwa [div_lt_iff₀ hc] at hj
    have h3 : c * (64 ^ j * (6 * volume m.points t) ^ 2) ≤ volume m.points t ^ 2 :=
      (mul_le_mul_of_nonneg_left hl hc.le).trans h1
    have h4 : 0 < volume m.points t ^ 2 := by positivity
    nlinarith [mul_lt_mul_of_pos_right h2 h4]

/-- C81: refinement does not change the region covered by the tetrahedra, and if the tetrahedra did not
overlap, the new ones do not. -/
theorem c81_refine (hs : IsSort srt) (k : Nat) (m : Mesh K) (h : Conforming m) :
    ∃ m' : Mesh K, refineN srt k m = .ok m' ∧
      (∀ x, (∃ t ∈ m'.vols, InTet m'.points t x) ↔ ∃ t ∈ m.vols, InTet m.points t x) ∧
      ((∀ t ∈ m.vols, volume m.points t ≠ 0) →
        (∀ t ∈ m.vols, ∀ t' ∈ m.vols, ∀ x, InTetOpen m.points t x → InTetOpen m.points t' x → t = t') →
        ∀ t ∈ m'.vols, ∀ t' ∈ m'.vols, ∀ x, InTetOpen m'.points t x → InTetOpen m'.points t' x → t = t') :=
  ⟨fineN srt k m, refineN_ok hs k h, fineN_cover hs k h, fineN_disjoint hs k h⟩

/-- C81, from the mesher's first mesh: at every level the tetrahedra cover exactly the unit cube and two
different ones have no common inner point. -/
theorem c81_cube (hs : IsSort srt) (k : Nat) :
    ∃ m : Mesh K, (init srt).bind (refineN srt k) = .ok m ∧
      (∀ x : K × K × K, (∃ t ∈ m.vols, InTet m.points t x) ↔
        ((0 ≤ x.1 ∧ x.1 ≤ 1) ∧ (0 ≤ x.2.1 ∧ x.2.1 ≤ 1) ∧ 0 ≤ x.2.2 ∧ x.2.2 ≤ 1)) ∧
      ∀ t ∈ m.vols, ∀ t' ∈ m.vols, ∀ x, InTetOpen m.points t x → InTetOpen m.points t' x → t = t' := by
  have hc := mesh0_conforming K
  refine ⟨fineN srt k (mesh0 K), ?_, fun x => (fineN_cover hs k hc x).trans (mesh0_cover x), ?_⟩
  · rw [init_ok K hs, Outcome.bind_ok, refineN_ok hs _ hc]
  · refine fineN_disjoint hs k hc (fun t ht => ?_) mesh0_disjoint
    rw [mesh0_volume t ht]; norm_num

end

/-- A sort exists, so none of the above is vacuous. -/
example : IsSort stable := stable_isSort

example : ∃ m : Mesh ℚ, (init stable).bind (refineN stable 1) = .ok m ∧ m.vols.length = 48 ∧ m.surfaces.length = 120 := by
  obtain ⟨m, h1, -, h2, -⟩ := c78_levels (K := ℚ) stable_isSort 1
  refine ⟨m, h1, by simpa using h2, ?_⟩
  rw [init_ok ℚ stable_isSort, Outcome.bind_ok, refineN_ok stable_isSort 1 (mesh0_conforming ℚ)] at h1
  cases h1
  change (fine stable (mesh0 ℚ)).surfaces.length = 120
  rw [fine_surfaces_length stable_isSort (mesh0_conforming ℚ)]
  rfl

/-- An inner point of a tetrahedron. -/
example : InTetOpen (mesh0 ℚ).points ⟨0, 1, 3, 7⟩ (1 / 4, 1 / 2, 1 / 4) :=
  ⟨1 / 4, 1 / 4, 1 / 4, 1 / 4, by norm_num, by norm_num, by norm_num, by norm_num, by norm_num, by
    norm_num [bary, pt, mesh0]⟩

/-- The refinement throws when an edge of a tetrahedron is not stored. -/
example : TetRefine.refine stable (⟨[(0, 0, 0), (1, 0, 0), (0, 1, 0), (0, 0, 1)], [],
    [(⟨0, 1, 2⟩, ⟨0, true⟩), (⟨0, 1, 3⟩, ⟨0, true⟩), (⟨0, 2, 3⟩, ⟨0, true⟩), (⟨1, 2, 3⟩, ⟨0, true⟩)],
    [⟨0, 1, 2, 3⟩]⟩ : Mesh ℚ) =
    .throws "Edge not found. This is a bug." := by
  decide +kernel

end Verif.Props.TetRefine
