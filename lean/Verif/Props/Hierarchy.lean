import Verif.Lemmas.HierLocate
import Verif.Model.MeshInfo
/-!
C71: hierarchies of nested triangle meshes. C72: locating points in them. C73: descriptors of faces and cells.
-/
namespace Verif.Props.Hierarchy
open Verif Verif.TriRefine Verif.Hierarchy Verif.Spec Verif.Spec.Locate

section
variable {K : Type} [Field K]

/-- C71: from a conforming mesh, any number `k` of refinements gives `k + 1` conforming meshes and `k` maps;
the first mesh is the one given, level `l` has `4^l` times its triangles, and each map lists the four parts of
every triangle of its level, using every triangle of the next level once. -/
theorem c71_build (junk k : Nat) (m : Mesh K) (h : Conforming m) :
    ∃ ms cs, build junk k m = .ok (ms, cs) ∧ ms.length = k + 1 ∧ cs.length = k ∧ ms[0]? = some m ∧
      (∀ (l : Nat) (m' : Mesh K), ms[l]? = some m' → Conforming m' ∧ m'.tris.length = 4 ^ l * m.tris.length) ∧
      (∀ (l : Nat) (a b : Mesh K) (c : List (List Nat)), ms[l]? = some a → ms[l + 1]? = some b → cs[l]? = some c →
        Nested a b c) := by
  obtain ⟨ms, cs, h1, h2, h3, h4, h5, h6⟩ := build_ok junk k m h
  exact ⟨ms, cs, h1, h2, h3, h4, fun l m' hl => ⟨(h5 l m' hl).1, (h5 l m' hl).2.1⟩, h6⟩

/-- C71: level `l` has the points, the triangles and the boundary edges with their identifiers that `l`
refinements by the mesher give; in particular they do not depend on the uninitialised identifiers. -/
theorem c71_mesher (junk k : Nat) (m : Mesh K) (h : Conforming m) :
    ∃ ms cs, build junk k m = .ok (ms, cs) ∧
      ∀ (l : Nat) (m' : Mesh K), ms[l]? = some m' → ∃ f, refineN l m = .ok f ∧ m'.points = f.points ∧ m'.tris = f.tris ∧
        m'.edges.map Prod.fst = f.edges.map Prod.fst ∧
        m'.edges.filter (fun x => x.2.bnd) = f.edges.filter (fun x => x.2.bnd) := by
  obtain ⟨ms, cs, h1, _, _, _, h5, _⟩ := build_ok junk k m h
  refine ⟨ms, cs, h1, fun l m' hl => ?_⟩
  obtain ⟨_, _, f, e1, e2⟩ := h5 l m' hl
  refine ⟨f, e1, e2.points.symm, e2.tris.symm, e2.keys_eq.symm, ?_⟩
  rw [norm_bnd, norm_bnd f.edges, e2.edges]

end

example : Conforming (pattern1 : Mesh ℚ) ∧ Conforming (pattern2 : Mesh ℚ) := ⟨pattern1_conforming, pattern2_conforming⟩

example : ∃ m c, build 7 1 (pattern2 : Mesh ℚ) = .ok ([pattern2, m], [c]) ∧
    c = [[0, 2, 3, 6], [1, 4, 5, 7]] := by
  refine ⟨next 7 pattern2, _, ?_, rfl⟩
  rw [build, buildNext_ok 7 _ pattern2_conforming]
  simp only [Outcome.bind_ok]
  rw [c2f_ok 7 _ pattern2_conforming]
  decide +kernel

section
variable {K : Type} [Field K] [LinearOrder K] [IsStrictOrderedRing K]

/-- C72: in a hierarchy built from a conforming mesh without degenerate triangles, a point of the mesh is found
at every level of the hierarchy, and the triangle returned contains it; a point in no triangle of the mesh is
reported with an exception at every level. -/
theorem c72_locate (junk k : Nat) (m : Mesh K) (h : Conforming m)
    (hd : ∀ t ∈ m.tris, area m.points t ≠ 0) :
    ∃ ms cs, build junk k m = .ok (ms, cs) ∧ ms.length = k + 1 ∧
      ∀ (x : K × K) (level : Nat), level ≤ k →
        ((∃ i a b c, cornersAt m i = some (a, b, c) ∧ InTriangle a b c x) →
          ∃ t m' a b c, Locate.locatePoint (HierLocate.hier ms cs) x level = .ok t ∧ ms[level]? = some m' ∧
            cornersAt m' t = some (a, b, c) ∧ InTriangle a b c x) ∧
        ((∀ i a b c, cornersAt m i = some (a, b, c) → ¬ InTriangle a b c x) →
          (Locate.locatePoint (HierLocate.hier ms cs) x level).Throws) := by
  obtain ⟨ms, cs, h1, h2, h3, h4, h5, h6⟩ := build_ok junk k m h
  have g : HierLocate.Good ms cs := by
    refine HierLocate.good_nondeg (by omega) (fun l m' hl => (h5 l m' hl).1) h6 ?_
    intro m' hm'
    rw [h4] at hm'
    cases hm'
    intro i p q r hc
    unfold cornersAt at hc
    cases ht : m.tris[i]? with
    | none => rw [ht] at hc; simp at hc
    | some t =>
      rw [ht] at hc
      obtain ⟨p', q', r', hp, hq, hr⟩ := corners_of_conforming h (List.mem_of_getElem? ht)
      simp only [corners, hp, hq, hr, Option.some.injEq, Prod.mk.injEq] at hc
      obtain ⟨rfl, rfl, rfl⟩ := hc
      have := hd t (List.mem_of_getElem? ht)
      intro h0
      apply this
      refine (area_some (a := t.a) (b := t.b) (c := t.c) hp hq hr).trans ?_
      have e : cross p' q' r' = 0 := by
        simp only [HierLocate.det] at h0
        simp only [cross]
        linear_combination h0
      rw [e]; simp
  refine ⟨ms, cs, h1, h2, fun x level hl => ?_⟩
  rcases HierLocate.locatePoint_ok g x level (by omega) m h4 with ⟨e1, e2⟩ | ⟨e1, e2⟩
  · refine ⟨fun _ => e2, fun hn => ?_⟩
    obtain ⟨i, a, b, c, hc, hin⟩ := e1
    exact absurd hin (hn i a b c hc)
  · refine ⟨fun ⟨i, a, b, c, hc, hin⟩ => absurd hin (e1 i a b c hc), fun _ => e2⟩

end

/-- The unit square in two triangles satisfies the hypotheses of `c72_locate`, and has points. -/
example : Conforming (pattern2 : Mesh ℚ) ∧ (∀ t ∈ (pattern2 : Mesh ℚ).tris, area (pattern2 : Mesh ℚ).points t ≠ 0) ∧
    ∃ i a b c, cornersAt (pattern2 : Mesh ℚ) i = some (a, b, c) ∧ InTriangle a b c (1 / 2, 1 / 4) := by
  refine ⟨pattern2_conforming, by decide +kernel, 0, (0, 0), (1, 0), (1, 1), by decide +kernel, ?_⟩
  exact ⟨1 / 4, 1 / 4, 1 / 2, by norm_num, by norm_num, by norm_num, by norm_num, by norm_num, by norm_num⟩

section
variable {K : Type} [Field K]
open MeshInfo

/-- C73: in the meshes of the triangle mesher and in the polygonal single-element mesh, every face and every
cell has its descriptor. -/
theorem c73_partial :
    (∀ (m : Mesh K) (i : Nat), (i < m.tris.length → domainInfo (ofMesher m) i = .ok i) ∧
      (i < m.edges.length → boundaryInfo (ofMesher m) i = .ok i)) ∧
    (∀ (n : Nat) (s : Sizes), MeshInfo.polygon n = some s → domainInfo s 0 = .ok 0 ∧ s.faces = n ∧
      ∀ i, i < n → boundaryInfo s i = .ok i) := by
  refine ⟨?_, ?_⟩
  · intro m i
    refine ⟨fun h => ?_, fun h => ?_⟩ <;> simp [domainInfo, boundaryInfo, ofMesher, h]
  · intro n s hs
    simp only [MeshInfo.polygon, SingleMesh.polygon] at hs
    by_cases hn : n < 3
    · rw [if_pos hn] at hs; cases hs
    · rw [if_neg hn] at hs
      have hlen : (SingleMesh.sortFaces ((List.range n).map (SingleMesh.polygonEdge n))).length = n := by
        rw [SingleMesh.sortFaces, (Sort.sortBy_perm _ _).length_eq]; simp
      simp only [Option.map_some, Option.some.injEq, hlen] at hs
      subst hs
      refine ⟨rfl, rfl, fun i hi => ?_⟩
      simp [boundaryInfo, hi]

example : MeshInfo.polygon 5 = some ⟨5, 1, 5, 1⟩ := by decide +kernel

/-- C73 violation: on a refined level of a hierarchy that has any triangle, no cell has a subdomain
descriptor (the faces have theirs). -/
theorem c73_hierarchy_violation (junk k : Nat) (m : Mesh K) (h : Conforming m) (hm : m.tris ≠ []) :
    ∃ ms cs, build junk k m = .ok (ms, cs) ∧ ms.length = k + 1 ∧
      ∀ (l : Nat) (m' : Mesh K), 0 < l → ms[l]? = some m' → m'.tris ≠ [] ∧
        (∀ cid, (domainInfo (ofLevel m') cid).IsUB) ∧
        (∀ fid, fid < m'.edges.length → boundaryInfo (ofLevel m') fid = .ok fid) := by
  obtain ⟨ms, cs, h1, h2, _, _, h5, _⟩ := build_ok junk k m h
  refine ⟨ms, cs, h1, h2, fun l m' _ hl => ?_⟩
  have hlen := (h5 l m' hl).2.1
  have hpos : 0 < m.tris.length := List.length_pos_iff.2 hm
  have hp : 0 < m'.tris.length := by rw [hlen]; positivity
  refine ⟨List.length_pos_iff.1 hp, fun cid => ?_, fun fid hf => ?_⟩
  · have : (0 : Nat) ≠ m'.tris.length := by omega
    simp [domainInfo, ofLevel, this]
  · simp [boundaryInfo, ofLevel, hf]

example : (pattern1 : Mesh ℚ).tris ≠ [] := by decide

/-- C73 violation: the other single-element meshes. The segment has no subdomain descriptor; the triangle, the
tetrahedron and the Cartesian cells have no boundary descriptors. -/
theorem c73_single_violation :
    (domainInfo segment 0).IsUB ∧ (∀ i, i < 2 → boundaryInfo segment i = .ok i) ∧
    (∀ s ∈ [triangle, tetra, quad, hexa], domainInfo s 0 = .ok 0 ∧ ∀ i, (boundaryInfo s i).IsUB) := by
  refine ⟨by decide +kernel, by decide +kernel, ?_⟩
  have hf : ∀ s ∈ [triangle, tetra, quad, hexa], s.boundary ≠ s.faces ∧ s.cells = 1 ∧ s.subdomain = 1 := by
    decide +kernel
  intro s hs
  obtain ⟨h1, h2, h3⟩ := hf s hs
  refine ⟨by simp [domainInfo, h2, h3], fun i => by simp [boundaryInfo, h1]⟩

end
end Verif.Props.Hierarchy
