import Verif.Lemmas.EarcutPoly
import Mathlib.Algebra.Order.Ring.Rat
import Mathlib.Algebra.Field.Rat
import Mathlib.Data.List.Sublists
/-!
Property C160: the triangulation of a two-dimensional cell by ear cutting.
-/
namespace Verif.Props.Earcut
open Verif.Spec Verif.Earcut

variable {K : Type} [Field K] [LinearOrder K] [IsStrictOrderedRing K]

/-- Whatever the points, `triangulation_earcut_algorithm` returns triples of indices of them, and
`split_in_raw_triangles` the triangles of these points. -/
theorem c160_indices (pts : List (P2 K)) (h : pts.length ≤ 80) :
    ∃ ts, triangulate pts = some ts ∧
      (∀ t ∈ ts, t.1 < pts.length ∧ t.2.1 < pts.length ∧ t.2.2 < pts.length) ∧
      ∃ tp, splitTriangles pts = some tp ∧
        List.Forall₂ (fun t p => pts[t.1]? = some p.1 ∧ pts[t.2.1]? = some p.2.1 ∧ pts[t.2.2]? = some p.2.2) ts tp := by
  obtain ⟨R, hR⟩ : ∃ R, earcut pts = some R := by
    unfold earcut
    rw [if_neg (by omega)]
    dsimp only
    split <;> exact ⟨_, rfl⟩
  obtain ⟨hw, hs⟩ := splitTriangles_eq hR
  refine ⟨R.tris.map fun t => (t.1.i, t.2.1.i, t.2.2.i), by rw [triangulate, hR]; rfl, ?_, _, hs, ?_⟩
  · intro t ht
    obtain ⟨t', ht', rfl⟩ := List.mem_map.1 ht
    obtain ⟨h1, h2, h3⟩ := hw t' ht'
    exact ⟨(List.getElem?_eq_some_iff.1 (nodesOf_mem h1)).1, (List.getElem?_eq_some_iff.1 (nodesOf_mem h2)).1,
      (List.getElem?_eq_some_iff.1 (nodesOf_mem h3)).1⟩
  · rw [List.forall₂_map_left_iff, List.forall₂_map_right_iff, List.forall₂_same]
    intro t ht
    obtain ⟨h1, h2, h3⟩ := hw t ht
    exact ⟨nodesOf_mem h1, nodesOf_mem h2, nodesOf_mem h3⟩

/-- A convex cell with distinct vertices, possibly some in the middle of sides, listed along its boundary either way
round, is cut in `n - 2` triangles that tile it: they are all counter-clockwise and of positive area, a point on no
line through two vertices is in exactly one of them if it is inside the cell and in none otherwise, the areas add up to
the area, and so do the integrals of any function. -/
theorem c160_convex_partial (pts q : List (P2 K)) (h80 : pts.length ≤ 80) (hq : q = pts ∨ q = pts.reverse)
    (hl : TurnsLeft q) (hn : q.Nodup) (hs : 0 < shoelace q) :
    ∃ ts, splitTriangles pts = some ts ∧ ts.length = pts.length - 2 ∧
      (∀ t ∈ ts, 0 < turn t.1 t.2.1 t.2.2) ∧ Tiles ts q ∧
      (ts.map fun t => turn t.1 t.2.1 t.2.2).sum = shoelace q ∧
      ∀ μ o, SignedIntegral μ → (ts.map fun t => μ t.1 t.2.1 t.2.2).sum = ringInt μ o q := by
  obtain ⟨R, hR, hc, hlen, ht⟩ := earcut_convex h80 hq hl hn hs
  have hsp := earcut_splits hR hc
  have key : ∀ μ o, SignedIntegral μ →
      ((R.tris.map triP).map fun t => μ t.1 t.2.1 t.2.2).sum = ringInt μ o q := by
    intro μ o hm
    have h1 := hsp.sum μ o hm
    rw [rs_linkedList hm] at h1
    have h2 : ((R.tris.map triP).map fun t => μ t.1 t.2.1 t.2.2).sum = ts μ R.tris := by
      rw [List.map_map]; rfl
    have h0 : rs μ o [] = 0 := rfl
    rw [h2]
    rw [h0, add_zero] at h1
    rw [← h1]
    rcases hq with rfl | rfl
    · rw [if_pos hs]
    · rw [shoelace_reverse] at hs
      rw [if_neg (by linarith), ringInt_eq, ringInt_eq, ringSum_reverse _ (fun a b => mu_anti hm o a b)]
  refine ⟨R.tris.map triP, (splitTriangles_eq hR).2, by rw [List.length_map]; omega, ?_, ht, ?_, key⟩
  · intro t ht
    obtain ⟨t', ht', rfl⟩ := List.mem_map.1 ht
    exact hsp.pos t' ht'
  · have hμ : SignedIntegral (turn : P2 K → P2 K → P2 K → K) :=
      ⟨fun a b c => by unfold turn; ring, fun a b c d => by unfold turn; ring, fun _ _ _ h => h⟩
    rw [key turn ⟨0, 0⟩ hμ]
    unfold shoelace ringInt
    congr 1
    refine List.map_congr_left fun e _ => ?_
    unfold turn; ring

/-- Any other polygon: if ear cutting used up the polygon without the repair of crossing sides, the triangles are
counter-clockwise and their signed integrals add up to the one of the polygon, taken counter-clockwise. -/
theorem c160_account (pts : List (P2 K)) (R : Result K) (h : earcut pts = some R) (hc : R.clean = true) :
    ∃ tp, splitTriangles pts = some tp ∧ (∀ t ∈ tp, 0 < turn t.1 t.2.1 t.2.2) ∧
      ∀ μ o, SignedIntegral μ → (tp.map fun t => μ t.1 t.2.1 t.2.2).sum =
        if 0 < shoelace pts then ringInt μ o pts else -ringInt μ o pts := by
  have hsp := earcut_splits h hc
  refine ⟨_, (splitTriangles_eq h).2, fun t ht => ?_, fun μ o hm => ?_⟩
  · obtain ⟨t', ht', rfl⟩ := List.mem_map.1 ht
    exact hsp.pos t' ht'
  · have h1 := hsp.sum μ o hm
    rw [rs_linkedList hm] at h1
    have h0 : rs μ o [] = 0 := rfl
    rw [h0, add_zero] at h1
    rw [h1, List.map_map]
    rfl

/-- The integrals of any polynomial over the triangles of a convex cell add up to its integral over the cell. -/
theorem c160_polynomials (pts q : List (P2 ℝ)) (h80 : pts.length ≤ 80) (hq : q = pts ∨ q = pts.reverse)
    (hl : TurnsLeft q) (hn : q.Nodup) (hs : 0 < shoelace q) (f : Poly2) (z : P2 ℝ) :
    ∃ ts, splitTriangles pts = some ts ∧
      (ts.map fun t => polyInt f z [t.1, t.2.1, t.2.2]).sum = polyInt f z q := by
  obtain ⟨ts, h, -, -, -, -, hm⟩ := c160_convex_partial pts q h80 hq hl hn hs
  exact ⟨ts, h, by rw [hm _ ⟨0, 0⟩ (poly_signed f z), ringInt_poly]⟩

example (f : Poly2) (z : P2 ℝ) : ∃ ts, splitTriangles ([⟨0, 0⟩, ⟨1, 0⟩, ⟨0, 1⟩] : List (P2 ℝ)) = some ts ∧
    (ts.map fun t => polyInt f z [t.1, t.2.1, t.2.2]).sum = polyInt f z [⟨0, 0⟩, ⟨1, 0⟩, ⟨0, 1⟩] := by
  refine c160_polynomials _ _ (by decide) (Or.inl rfl) (fun a b c h => ?_) ?_ ?_ f z
  · have e := h.eq_of_length rfl
    simp only [List.cons.injEq, and_true] at e
    rw [e.1, e.2.1, e.2.2]
    norm_num [turn]
  · simp
  · norm_num [shoelace, sides, List.rotate_cons_succ]

/-- Area and first moments are signed integrals. -/
example : SignedIntegral (fun a b c : P2 ℚ => turn a b c) :=
  ⟨fun a b c => by unfold turn; ring, fun a b c d => by unfold turn; ring, fun _ _ _ h => h⟩

example : SignedIntegral (fun a b c : P2 ℚ => turn a b c * (a.x + b.x + c.x)) :=
  ⟨fun a b c => by unfold turn; ring, fun a b c d => by unfold turn; ring, fun _ _ _ h => by rw [h, zero_mul]⟩

/-- A square with a vertex in the middle of a side, either way round. -/
def square5 : List (P2 ℚ) := [⟨0, 0⟩, ⟨1, 0⟩, ⟨2, 0⟩, ⟨2, 2⟩, ⟨0, 2⟩]

theorem square5_turns : TurnsLeft square5 := by
  intro a b c h
  have hm : [a, b, c] ∈ square5.sublists := List.mem_sublists.2 h
  have : ∀ l ∈ square5.sublists, ∀ u v w, l = [u, v, w] → 0 ≤ turn u v w := by
    have h2 : ∀ l ∈ square5.sublists, (match l with | [u, v, w] => decide (0 ≤ turn u v w) | _ => true) = true := by
      decide +kernel
    intro l hl u v w e
    have := h2 l hl
    rw [e] at this
    simpa using this
  exact this _ hm a b c rfl

example : ∃ ts, splitTriangles square5 = some ts ∧ ts.length = 3 ∧ Tiles ts square5 := by
  obtain ⟨ts, h1, h2, _, h3, _⟩ := c160_convex_partial square5 square5 (by decide) (Or.inl rfl) square5_turns
    (by decide +kernel) (by decide +kernel)
  exact ⟨ts, h1, h2, h3⟩

example : ∃ ts, splitTriangles square5.reverse = some ts ∧ ts.length = 3 ∧ Tiles ts square5 := by
  obtain ⟨ts, h1, h2, _, h3, _⟩ := c160_convex_partial square5.reverse square5 (by decide)
    (Or.inr (by rw [List.reverse_reverse])) square5_turns (by decide +kernel) (by decide +kernel)
  exact ⟨ts, h1, h2, h3⟩

/-- A cell that is not convex. -/
def ell : List (P2 ℚ) := [⟨0, 0⟩, ⟨2, 0⟩, ⟨2, 1⟩, ⟨1, 1⟩, ⟨1, 2⟩, ⟨0, 2⟩]

example : ∃ R, earcut ell = some R ∧ R.clean = true ∧ R.tris.length = 4 := by
  have h : (earcut ell).map (fun R => (R.clean, R.tris.length)) = some (true, 4) := by decide +kernel
  obtain ⟨R, hR, e⟩ := Option.map_eq_some_iff.1 h
  exact ⟨R, hR, congrArg Prod.fst e, congrArg Prod.snd e⟩

/-- Polygons that touch themselves are split along diagonals and used up: two triangles with a common corner; a
polygon with a hole reached by a slit; two parts that are passed through twice. -/
theorem c160_touching :
    (let p : List (P2 ℚ) := [⟨2, 1⟩, ⟨1, 0⟩, ⟨3, 1⟩, ⟨2, 1⟩, ⟨2, 2⟩, ⟨1, 1⟩]
     triangulate p = some [(4, 5, 3), (1, 2, 0)] ∧ (earcut p).map Result.clean = some true) ∧
    (let p : List (P2 ℚ) := [⟨2, 2⟩, ⟨1, 2⟩, ⟨2, 3⟩, ⟨2, 3⟩, ⟨2, 2⟩, ⟨1, 1⟩, ⟨2, 0⟩, ⟨2, 2⟩, ⟨3, 2⟩, ⟨3, 3⟩, ⟨0, 3⟩, ⟨0, 1⟩]
     triangulate p = some [(1, 10, 11), (11, 0, 1), (10, 1, 3), (8, 9, 3), (8, 3, 7), (5, 6, 4)] ∧
       (earcut p).map Result.clean = some true) ∧
    (let p : List (P2 ℚ) := [⟨1, 1⟩, ⟨2, 1⟩, ⟨2, 0⟩, ⟨3, 3⟩, ⟨0, 0⟩, ⟨2, 0⟩, ⟨2, 1⟩, ⟨3, 3⟩]
     triangulate p = some [(7, 0, 6), (3, 4, 2)] ∧ (earcut p).map Result.clean = some true) := by
  decide +kernel

/-- The points of a cell of a Cartesian mesh, in the order of the cell: lower left, lower right, upper left, upper
right. -/
def cartesian : List (P2 ℚ) := [⟨0, 0⟩, ⟨1, 0⟩, ⟨0, 1⟩, ⟨1, 1⟩]

/-- A cell of a Cartesian mesh is not tiled: of the unit square only the upper left half is returned, as a single
triangle, although the four vertices are those of a convex cell. -/
theorem c160_cartesian_violated :
    splitTriangles cartesian = some [(⟨0, 0⟩, ⟨1, 1⟩, ⟨0, 1⟩)] ∧
    (∃ q : List (P2 ℚ), q.Perm cartesian ∧ TurnsLeft q ∧ q.Nodup ∧ shoelace q = 2) ∧
    turn (⟨0, 0⟩ : P2 ℚ) ⟨1, 1⟩ ⟨0, 1⟩ = 1 := by
  refine ⟨by decide +kernel, ⟨[⟨0, 0⟩, ⟨1, 0⟩, ⟨1, 1⟩, ⟨0, 1⟩], ?_, ?_, by decide +kernel, by decide +kernel⟩,
    by decide +kernel⟩
  · exact ((List.Perm.swap _ _ _).cons _).cons _
  · intro a b c h
    have hm : [a, b, c] ∈ ([⟨0, 0⟩, ⟨1, 0⟩, ⟨1, 1⟩, ⟨0, 1⟩] : List (P2 ℚ)).sublists := List.mem_sublists.2 h
    have h2 : ∀ l ∈ ([⟨0, 0⟩, ⟨1, 0⟩, ⟨1, 1⟩, ⟨0, 1⟩] : List (P2 ℚ)).sublists,
        (match l with | [u, v, w] => decide (0 ≤ turn u v w) | _ => true) = true := by decide +kernel
    simpa using h2 _ hm

end Verif.Props.Earcut
