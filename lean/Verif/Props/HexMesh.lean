import Verif.Lemmas.HexMake
import Verif.Lemmas.HexCount
import Verif.Lemmas.HexPartition
/-!
C27: the hexagonal mesh generator tiles the square. C28: its meshes are conforming. C76: its polygons cover the square
without overlapping.

`fuel` bounds the depth of the recursion; `l < fuel` is enough. Levels above 61 are treated by `c27_overflow`.
-/
namespace Verif.Props.HexMesh
open Verif Verif.HexMesh Verif.Spec.HexMesh

/-- C27: each tile of the grid is visited once: the polygons are those of the tiles, each tile once. -/
theorem c27_tiles (l fuel : Nat) (hl : l ≤ 61) (hf : l < fuel) :
    ∃ hm o, makeHexmesh fuel l = .ok (hm, o) ∧ hm.coordMax = 2 ^ (l + 2) ∧
      hm.polys.Perm ((grid (2 ^ l)).flatMap fun t =>
        (localPolys (t.2 == 0) (t.2 + 1 == 2 ^ l) (t.1 == 0) (t.1 + 1 == 2 ^ l)).map fun p => p.map (shift (4 * t.1) (4 * t.2))) := by
  obtain ⟨hm, o, h, hc, hp, -⟩ := make_ok l fuel hl hf
  refine ⟨hm, o, h, by rw [hc, Nat.pow_add]; omega, hp.trans ?_⟩
  simp only [raw, addTiles, updateGeometry, List.nil_append]
  exact (tilesIn_grid l).flatMap_right _

/-- C27: the number of polygons, their total area, the number of boundary edges per side. -/
theorem c27_counts (l fuel : Nat) (hl : l ≤ 61) (hf : l < fuel) {hm : HM} {o : Owners} (h : makeHexmesh fuel l = .ok (hm, o)) :
    hm.polys.length = 4 * 2 ^ l * 2 ^ l + 3 * 2 ^ l ∧
    (hm.polys.map area2).sum = 2 * ((hm.coordMax : Int)) ^ 2 ∧
    ∀ s, (hm.bnd s).length = 2 * 2 ^ l ∧ (hm.bnd s).Nodup := by
  obtain ⟨hm', o', h', hc, hp, hb, -⟩ := make_ok l fuel hl hf
  rw [h] at h'
  obtain ⟨rfl, rfl⟩ := Prod.mk.inj (Outcome.ok.inj h')
  refine ⟨by rw [hp.length_eq, raw_length], ?_, fun s => ?_⟩
  · rw [(hp.map area2).sum_eq, raw_area, hc]
    push_cast; rfl
  · rw [hb]; exact ⟨raw_bnd_length l s, raw_bnd_nodup l s⟩

/-- C27: every vertex lies in the square. -/
theorem c27_inside (l fuel : Nat) (hl : l ≤ 61) (hf : l < fuel) {hm : HM} {o : Owners} (h : makeHexmesh fuel l = .ok (hm, o))
    {P : Poly} (hP : P ∈ hm.polys) {q : Pt} (hq : q ∈ P) : q.1 ≤ hm.coordMax ∧ q.2 ≤ hm.coordMax := by
  obtain ⟨hm', o', h', hc, hp, -⟩ := make_ok l fuel hl hf
  rw [h] at h'
  obtain ⟨rfl, rfl⟩ := Prod.mk.inj (Outcome.ok.inj h')
  rw [hc]
  exact raw_inside l P (hp.mem_iff.1 hP) q hq

/-- C27: above level 61 the side of the square does not fit `size_t`; it becomes zero and the recursion does not end. -/
theorem c27_overflow (l : Nat) (hl : 62 ≤ l) : ipow 2 (l + 2) = 0 ∧ ∀ fuel, makeHexmesh fuel l = .ub "stack overflow" :=
  ⟨ipow_two_zero _ (by omega), fun fuel => make_ub l fuel hl⟩

/-- Non-vacuity: levels 0 and 1. -/
example : (match makeHexmesh 5 0 with | .ok (hm, _) => (hm.coordMax, hm.polys.length, hm.points.length, hm.edges.length) | _ => (0, 0, 0, 0)) =
    (4, 7, 13, 19) := by decide +kernel

example : (match makeHexmesh 5 1 with | .ok (hm, _) => (hm.coordMax, hm.polys.length) | _ => (0, 0)) = (8, 22) := by
  decide +kernel

/-- C28: no edge has more than two owners, and the recorded owners are the polygons that have the edge, in order. -/
theorem c28_owners (l fuel : Nat) (hl : l ≤ 61) (hf : l < fuel) :
    ∃ hm o, makeHexmesh fuel l = .ok (hm, o) ∧ ∀ a b,
      uses hm.polys a b ≤ 2 ∧
      (o (mkEdge a b)).1.toList ++ (o (mkEdge a b)).2.toList =
        (hm.polys.zipIdx).flatMap fun x => List.replicate (uses [x.1] a b) x.2 := by
  obtain ⟨hm, o, h, hc, hp, -, -, -, hw, ho⟩ := make_ok l fuel hl hf
  refine ⟨hm, o, h, fun a b => ⟨?_, ?_⟩⟩
  · have hu : uses hm.polys a b = uses (raw l).polys a b := by
      rw [← count_edges, ← count_edges]
      exact (hp.flatMap_right _).count_eq _
    rw [hu]
    by_cases hab : a = b
    · rw [hab, uses_self]; omega
    · rw [uses_eq _ hab]
      have := count_side l (a, b)
      have := count_side l (b, a)
      omega
  · have := ho (mkEdge a b)
    rw [recorded] at this
    rw [this, ownersList]
    refine List.flatMap_congr fun x _ => ?_
    rw [← count_edges]
    simp [edgesOf]

/-- C28: the boundary lists hold exactly the edges of one polygon, which are those with a first and no second owner. -/
theorem c28_boundary (l fuel : Nat) (hl : l ≤ 61) (hf : l < fuel) {hm : HM} {o : Owners} (h : makeHexmesh fuel l = .ok (hm, o))
    (a b : Pt) :
    ((∃ s, mkEdge a b ∈ hm.bnd s) ↔ uses hm.polys a b = 1) ∧
    ((∃ s, mkEdge a b ∈ hm.bnd s) ↔ ∃ k, o (mkEdge a b) = (some k, none)) := by
  obtain ⟨hm', o', h', hc, hp, hb, -, -, hw, ho⟩ := make_ok l fuel hl hf
  rw [h] at h'
  obtain ⟨rfl, rfl⟩ := Prod.mk.inj (Outcome.ok.inj h')
  have hu : uses hm.polys a b = uses (raw l).polys a b := by
    rw [← count_edges, ← count_edges]
    exact (hp.flatMap_right _).count_eq _
  rw [hb, bnd_iff_once, ← hu]
  refine ⟨Iff.rfl, ?_⟩
  have hlen : (recorded (o (mkEdge a b))).length = uses hm.polys a b := by
    rw [ho, ownersList_length, count_edges]
  rw [← hlen]
  have hwe := hw (mkEdge a b)
  generalize o (mkEdge a b) = x at hwe
  obtain ⟨x1, x2⟩ := x
  cases x1 <;> cases x2 <;> simp_all [recorded]

/-- C28: the edge list holds exactly the sides of the polygons; points and edges are strictly sorted. -/
theorem c28_lists (l fuel : Nat) (hl : l ≤ 61) (hf : l < fuel) {hm : HM} {o : Owners} (h : makeHexmesh fuel l = .ok (hm, o)) :
    (∀ e, e ∈ hm.edges ↔ ∃ s ∈ hm.polys.flatMap ring, e = mkEdge s.1 s.2) ∧
    (∀ q, q ∈ hm.points ↔ ∃ P ∈ hm.polys, q ∈ P) ∧
    (hm.edges.Pairwise fun e f => edgeLt e f = true) ∧ (hm.points.Pairwise fun p q => ptLt p q = true) := by
  obtain ⟨hm', o', h', hc, hp, hb, hpts, hed, hw, ho⟩ := make_ok l fuel hl hf
  rw [h] at h'
  obtain ⟨rfl, rfl⟩ := Prod.mk.inj (Outcome.ok.inj h')
  refine ⟨fun e => ?_, fun q => ?_, ?_, ?_⟩
  · rw [hed, mem_unique, (Sort.sortBy_perm _ _).mem_iff]
    have : e ∈ (raw l).edges ↔ e ∈ edgesOf (raw l).polys := by simp [raw, addTiles, updateGeometry, edgesOf]
    rw [this, edgesOf_eq, List.mem_map]
    constructor
    · rintro ⟨s, hs, rfl⟩
      exact ⟨s, (hp.flatMap_right ring).mem_iff.2 hs, rfl⟩
    · rintro ⟨s, hs, rfl⟩
      exact ⟨s, (hp.flatMap_right ring).mem_iff.1 hs, rfl⟩
  · rw [hpts, mem_unique, (Sort.sortBy_perm _ _).mem_iff]
    have : q ∈ (raw l).points ↔ ∃ P ∈ (raw l).polys, q ∈ (sides P).map Prod.fst := by
      simp [raw, addTiles, updateGeometry]
    rw [this]
    have hfst : ∀ P : Poly, (sides P).map Prod.fst = P := by
      intro P
      rw [sides_eq, ring, List.map_fst_zip]
      cases P <;> simp
    simp only [hfst]
    constructor
    · rintro ⟨P, hP, hq⟩; exact ⟨P, hp.mem_iff.2 hP, hq⟩
    · rintro ⟨P, hP, hq⟩; exact ⟨P, hp.mem_iff.1 hP, hq⟩
  · rw [hed]
    refine unique_strict edgeLt (fun _ _ => edgeLt_total) (fun _ _ _ => edgeLt_trans) _ ?_
    exact Sort.sortBy_weak edgeLt (fun _ _ => edgeLt_asymm)
      (neg_trans edgeLt (fun _ _ => edgeLt_total) (fun _ _ _ => edgeLt_trans) fun _ _ => edgeLt_asymm) _
  · rw [hpts]
    refine unique_strict ptLt (fun _ _ => ptLt_total) (fun _ _ _ => ptLt_trans) _ ?_
    exact Sort.sortBy_weak ptLt (fun _ _ => ptLt_asymm)
      (neg_trans ptLt (fun _ _ => ptLt_total) (fun _ _ _ => ptLt_trans) fun _ _ => ptLt_asymm) _

/-- C28: no side joins a point to itself (the assertion of the edge constructor), and each directed side occurs
once: the two owners of an edge run through it in opposite directions. -/
theorem c28_edges_proper (l fuel : Nat) (hl : l ≤ 61) (hf : l < fuel) {hm : HM} {o : Owners} (h : makeHexmesh fuel l = .ok (hm, o)) :
    (∀ s ∈ hm.polys.flatMap ring, s.1 ≠ s.2) ∧ (hm.polys.flatMap ring).Nodup := by
  obtain ⟨hm', o', h', hc, hp, -⟩ := make_ok l fuel hl hf
  rw [h] at h'
  obtain ⟨rfl, rfl⟩ := Prod.mk.inj (Outcome.ok.inj h')
  have hq := hp.flatMap_right ring
  exact ⟨fun s hs => side_proper l (hq.mem_iff.1 hs), hq.nodup_iff.2 (raw_sides_nodup l)⟩

/-- Non-vacuity: level 0 has a boundary edge and an edge with two owners. -/
example : (match makeHexmesh 5 0 with | .ok (_, o) => (o (mkEdge (0, 0) (3, 0)), o (mkEdge (2, 1) (1, 1))) | _ => ((none, none), (none, none))) =
    ((some 2, none), (some 2, some 6)) := by decide +kernel

section
variable {K : Type} [Field K] [LinearOrder K] [IsStrictOrderedRing K]

/-- C76: the polygons cover the square. -/
theorem c76_cover (l fuel : Nat) (hl : l ≤ 61) (hf : l < fuel) {hm : HM} {o : Owners} (h : makeHexmesh fuel l = .ok (hm, o))
    (z : K × K) (hx : 0 ≤ z.1 ∧ z.1 ≤ hm.coordMax) (hy : 0 ≤ z.2 ∧ z.2 ≤ hm.coordMax) : ∃ P ∈ hm.polys, InClosed P z := by
  obtain ⟨hm', o', h', hc, hp, -⟩ := make_ok l fuel hl hf
  rw [h] at h'
  obtain ⟨rfl, rfl⟩ := Prod.mk.inj (Outcome.ok.inj h')
  rw [hc] at hx hy
  push_cast at hx hy
  obtain ⟨t, p, hok, hin⟩ := cover (n := 2 ^ l) (Nat.two_pow_pos l) z hx.1 (by push_cast; exact hx.2) hy.1 (by push_cast; exact hy.2)
  refine ⟨place t p, hp.mem_iff.2 ?_, hin⟩
  rw [raw_polys]
  exact List.mem_map.2 ⟨(t, p), (mem_placed l t p).2 hok, rfl⟩

/-- C76: the interiors of two polygons of the mesh have no common point. -/
theorem c76_disjoint (l fuel : Nat) (hl : l ≤ 61) (hf : l < fuel) {hm : HM} {o : Owners} (h : makeHexmesh fuel l = .ok (hm, o)) :
    hm.polys.Pairwise fun P Q => ∀ z : K × K, ¬ (InOpen P z ∧ InOpen Q z) := by
  obtain ⟨hm', o', h', hc, hp, -⟩ := make_ok l fuel hl hf
  rw [h] at h'
  obtain ⟨rfl, rfl⟩ := Prod.mk.inj (Outcome.ok.inj h')
  refine (hp.pairwise_iff (fun hPQ z hz => hPQ z hz.symm)).2 ?_
  rw [raw_polys, List.pairwise_map]
  refine (placed_nodup l).pairwise_of_forall_ne ?_
  rintro ⟨t, p⟩ ha ⟨t', q⟩ hb hab z ⟨h1, h2⟩
  obtain ⟨rfl, rfl⟩ := interior_unique ((mem_placed l _ _).1 ha) ((mem_placed l _ _).1 hb) h1 h2
  exact hab rfl

end

/-- C76: every polygon is convex and counterclockwise: each vertex lies to the left of each side or on it, and the
area is positive. -/
theorem c76_convex (l fuel : Nat) (hl : l ≤ 61) (hf : l < fuel) {hm : HM} {o : Owners} (h : makeHexmesh fuel l = .ok (hm, o))
    {P : Poly} (hP : P ∈ hm.polys) : 0 < area2 P ∧ 3 ≤ P.length ∧
      ∀ v ∈ P, InClosed P ((v.1 : ℚ), (v.2 : ℚ)) := by
  obtain ⟨hm', o', h', hc, hp, -⟩ := make_ok l fuel hl hf
  rw [h] at h'
  obtain ⟨rfl, rfl⟩ := Prod.mk.inj (Outcome.ok.inj h')
  have hP' := hp.mem_iff.1 hP
  rw [raw_polys] at hP'
  obtain ⟨⟨t, p⟩, -, rfl⟩ := List.mem_map.1 hP'
  have tab : ∀ p ∈ Piece.all, 0 < area2 p.pts ∧ 3 ≤ p.pts.length ∧ ∀ v ∈ p.pts, ∀ s ∈ ring p.pts, 0 ≤ oriZ s v := by decide +kernel
  obtain ⟨h1, h2, h3⟩ := tab p (Piece.mem_all p)
  refine ⟨by simp only [place]; rw [area2_cyclic]; exact h1, by simp only [place, List.length_map]; exact h2, ?_⟩
  intro v hv
  simp only [place] at hv ⊢
  obtain ⟨r, hr, rfl⟩ := List.mem_map.1 hv
  rw [inClosed_shift]
  intro s hs
  have e : (((shift (4 * t.1) (4 * t.2) r).1 : ℚ) - ((4 * t.1 : Nat) : ℚ), ((shift (4 * t.1) (4 * t.2) r).2 : ℚ) - ((4 * t.2 : Nat) : ℚ)) = emb r := by
    simp [shift, emb]
  rw [e, leftOf_emb]
  exact_mod_cast h3 r hr s hs

/-- Non-vacuity: the centre of the square of level 0 is inside a polygon. -/
example : InOpen [(0, 2), (1, 1), (2, 1), (3, 2), (2, 3), (1, 3)] ((2 : ℚ), (2 : ℚ)) := by
  simp [InOpen, ring, leftOf]; norm_num

end Verif.Props.HexMesh
