import Verif.Lemmas.PostMesh
import Verif.Spec.PostMesh
import Verif.Props.Earcut
/-!
Property C161: meshes for post-processing.
-/
namespace Verif.Props.PostMesh
open Verif Verif.Spec Verif.Spec.PostMesh Verif.PostMesh Verif.Lemmas.Polyhedron

variable {K : Type} [Field K]

omit [Field K] in
theorem readable_of_proper {m : Mesh3 K} (hw : Proper3 m.nNodes m.pts m.faces m.cells) : readable3 m = true := by
  have hn := hw.nodes
  simp only [readable3, Bool.and_eq_true, decide_eq_true_eq, List.all_eq_true, Bool.or_eq_true]
  refine ⟨⟨hn, fun f hf => .inr fun i hi => lt_of_lt_of_le ((hw.face f hf).2 i hi) hn⟩, fun c hc => .inr ⟨?_, ?_⟩⟩
  · exact fun i hi => lt_of_lt_of_le ((hw.cell c hc).2.1 i hi) hn
  · intro j hj
    obtain ⟨h1, -⟩ := (hw.cell c hc).2.2 j hj
    refine ⟨h1, ?_⟩
    have h3 := (hw.face _ (List.getElem_mem h1)).1
    rw [List.getD_eq_getElem?_getD, List.getElem?_eq_getElem h1, Option.getD_some]
    cases hl : m.faces[j] with
    | nil => rw [hl] at h3; simp at h3
    | cons a l => rfl

/-- C161 (space): the points are the nodes, then the means of the faces with more than three nodes, then the means of
the cells that are no tetrahedra. The tetrahedra come cell by cell. The list kept for a cell starts with its nodes,
holds numbers of points only, and has all vertices of the tetrahedra of the cell. A tetrahedron stays as it is, and the
volumes of the tetrahedra of any other convex cell with planar faces add up to its volume. -/
theorem c161_solid [LinearOrder K] [IsStrictOrderedRing K] (m : Mesh3 K)
    (hw : Proper3 m.nNodes m.pts m.faces m.cells) :
    ∃ (P : Post3 K) (bs : List (List (Nat × Nat × Nat × Nat) × List Nat)), build3 m = .ok P ∧
      P.pts = m.pts.take m.nNodes ++
        (m.faces.filter fun f => decide (3 < f.length)).map (fun f => mean3 (pointsOf m.pts f)) ++
        (m.cells.filter fun c => decide (c.1.length ≠ 4)).map (fun c => mean3 (pointsOf m.pts c.1)) ∧
      P.vols = (bs.map Prod.fst).flatten ∧ P.cellNodes = bs.map Prod.snd ∧
      List.Forall₂ (fun c b => c.1 <+: b.2 ∧ (∀ i ∈ b.2, i < P.pts.length) ∧
        (∀ t ∈ b.1, t.1 ∈ b.2 ∧ t.2.1 ∈ b.2 ∧ t.2.2.1 ∈ b.2 ∧ t.2.2.2 ∈ b.2) ∧
        (∀ x y z w, c.1 = [x, y, z, w] → b = ([(x, y, z, w)], c.1)) ∧
        ∀ fs z, c.1.length ≠ 4 → ConvexCell m.pts m.faces c fs → tetsVol P.pts b.1 = surfVol z fs) m.cells bs := by
  obtain ⟨P, fn, bs, h1, h2, h3, h4, h5, h6, -⟩ := build3_spec m (readable_of_proper hw)
  refine ⟨P, bs, h1, h2, h3, h4, ?_⟩
  have hnode : ∀ i, i < m.nNodes → i < P.pts.length ∧ at3 P.pts i = m.pts.getD i ⟨0, 0, 0⟩ := by
    intro i hi
    have hn := hw.nodes
    refine ⟨?_, at3_node (by rw [h2, List.append_assoc]) hn hi⟩
    rw [h2]; simp; omega
  have hface : ∀ j < m.faces.length, FaceRel m.pts P.pts (m.faces.getD j []) (fn.getD j []) := by
    intro j hj
    have hj' : j < fn.length := by rw [← h5.length_eq]; exact hj
    have := (List.forall₂_iff_get.1 h5).2 j hj hj'
    simpa [List.getD_eq_getElem?_getD, hj, hj'] using this
  have hfm : ∀ j < m.faces.length, m.faces.getD j [] ∈ m.faces := by
    intro j hj
    rw [List.getD_eq_getElem?_getD, List.getElem?_eq_getElem hj, Option.getD_some]
    exact List.getElem_mem hj
  refine (List.forall₂_iff_get.2 ⟨h6.length_eq, fun k hk hk' => ?_⟩)
  have hc := (List.forall₂_iff_get.1 h6).2 k hk hk'
  have hcell := hw.cell _ (List.get_mem m.cells ⟨k, hk⟩)
  generalize m.cells.get ⟨k, hk⟩ = c at *
  generalize bs.get ⟨k, hk'⟩ = b at *
  obtain ⟨hne, hin, hj⟩ := hcell
  rcases hc with ⟨x, y, z, w, hx, rfl⟩ | ⟨hl, a, ha, rfl⟩
  · rw [hx] at hin ⊢
    refine ⟨List.prefix_rfl, fun i hi => (hnode i (hin i hi)).1, ?_, ?_, fun _ _ h => absurd rfl h⟩
    · intro t ht
      rw [List.mem_singleton.1 ht]; simp
    · intro x' y' z' w' e
      simp only [List.cons.injEq, and_true] at e
      obtain ⟨rfl, rfl, rfl, rfl⟩ := e
      rfl
  · refine ⟨⟨[a] ++ (cellFaces fn a c.2).1, by simp⟩, ?_, ?_, ?_, ?_⟩
    · intro i hi
      rcases List.mem_append.1 hi with hi | hi
      · rcases List.mem_append.1 hi with hi | hi
        · exact (hnode i (hin i hi)).1
        · rw [List.mem_singleton.1 hi]; exact (List.getElem?_eq_some_iff.1 ha).1
      · obtain ⟨j, hjm, hlt, rfl⟩ := (cellFaces_nodes fn a c.2 i).1 hi
        rcases hface j (hj j hjm).1 with ⟨hle, hg⟩ | ⟨hlt', b, hb, hg⟩
        · rw [hg] at hlt
          have h3' := (hw.face _ (hfm j (hj j hjm).1)).1
          generalize m.faces.getD j [] = f at *
          match f, hle, h3' with
          | [u, v, w], _, _ => simp [faceTris] at hlt
        · rw [hg, (fan_second hlt' b).2]
          exact (List.getElem?_eq_some_iff.1 hb).1
    · intro t ht
      rw [cellFaces_tets] at ht
      obtain ⟨j, hjm, ht0⟩ := List.mem_flatMap.1 ht
      obtain ⟨t, ht1, rfl⟩ := List.mem_map.1 ht0
      have hsub := (hj j hjm).2
      rcases hface j (hj j hjm).1 with ⟨hle, hg⟩ | ⟨hlt', b, hb, hg⟩
      · have h3' := (hw.face _ (hfm j (hj j hjm).1)).1
        rw [hg] at ht1
        generalize m.faces.getD j [] = f at *
        match f, hle, h3' with
        | [u, v, w], _, _ =>
          rw [faceTris, List.mem_singleton] at ht1
          subst ht1
          have h1 := hsub u (by simp)
          have h2 := hsub v (by simp)
          have h3 := hsub w (by simp)
          simp [h1, h2, h3]
      · have hn : b ∈ (cellFaces fn a c.2).1 := by
          rw [cellFaces_nodes]
          exact ⟨j, hjm, by rw [hg]; exact (fan_second hlt' b).1, by rw [hg]; exact (fan_second hlt' b).2.symm⟩
        rw [hg] at ht1
        obtain ⟨e1, e2, e3⟩ := mem_fan hlt' ht1
        have h1 := hsub _ e1
        have h2 := hsub _ e2
        simp [h1, h2, e3, hn]
    · intro x y z w e
      rw [e] at hl; exact absurd rfl hl
    · intro fs z _ hcv
      have := cell_tets h5 c.1 c.2 hne fs hcv.same (fun j hjm => ⟨(hj j hjm).1,
        (hw.face _ (hfm j (hj j hjm).1)).1,
        fun i hi => (hnode i (hin i ((hj j hjm).2 i hi))).2, hcv.planar j hjm⟩) hcv.convex a ha
      rw [surfVol_eq two_ne_zero z (mean3 (coords m.pts c.1)) fs hcv.closed]
      exact this

/-- The unit cube with its faces as those of a Cartesian mesh. -/
def cube : Mesh3 ℚ :=
  { pts := [⟨0, 0, 0⟩, ⟨1, 0, 0⟩, ⟨0, 1, 0⟩, ⟨1, 1, 0⟩, ⟨0, 0, 1⟩, ⟨1, 0, 1⟩, ⟨0, 1, 1⟩, ⟨1, 1, 1⟩]
    nNodes := 8
    faces := [[0, 2, 6, 4], [1, 3, 7, 5], [0, 1, 3, 2], [4, 5, 7, 6], [0, 4, 5, 1], [2, 6, 7, 3]]
    cells := [([0, 1, 2, 3, 4, 5, 6, 7], [0, 1, 2, 3, 4, 5])] }

theorem cube_proper : Proper3 cube.nNodes cube.pts cube.faces cube.cells := ⟨by decide, by decide, by decide⟩

/-- The faces with their directions. -/
def cubeFaces : List (List (P3 ℚ) × Bool) :=
  [([⟨0, 0, 0⟩, ⟨0, 1, 0⟩, ⟨0, 1, 1⟩, ⟨0, 0, 1⟩], false), ([⟨1, 0, 0⟩, ⟨1, 1, 0⟩, ⟨1, 1, 1⟩, ⟨1, 0, 1⟩], true),
    ([⟨0, 0, 0⟩, ⟨1, 0, 0⟩, ⟨1, 1, 0⟩, ⟨0, 1, 0⟩], false), ([⟨0, 0, 1⟩, ⟨1, 0, 1⟩, ⟨1, 1, 1⟩, ⟨0, 1, 1⟩], true),
    ([⟨0, 0, 0⟩, ⟨0, 0, 1⟩, ⟨1, 0, 1⟩, ⟨1, 0, 0⟩], false), ([⟨0, 1, 0⟩, ⟨0, 1, 1⟩, ⟨1, 1, 1⟩, ⟨1, 1, 0⟩], true)]

theorem cube_convex : ConvexCell cube.pts cube.faces ([0, 1, 2, 3, 4, 5, 6, 7], [0, 1, 2, 3, 4, 5]) cubeFaces := by
  refine ⟨by decide +kernel, ?_, ?_, ?_⟩
  · unfold ConvexSurface; decide +kernel
  · unfold ClosedSurface; decide +kernel
  · intro j hj _
    have hj' : j < 6 := by simp at hj; omega
    match j, hj' with
    | 0, _ => exact ⟨⟨1, 0, 0⟩, 0, by decide +kernel, by decide +kernel⟩
    | 1, _ => exact ⟨⟨1, 0, 0⟩, 1, by decide +kernel, by decide +kernel⟩
    | 2, _ => exact ⟨⟨0, 0, 1⟩, 0, by decide +kernel, by decide +kernel⟩
    | 3, _ => exact ⟨⟨0, 0, 1⟩, 1, by decide +kernel, by decide +kernel⟩
    | 4, _ => exact ⟨⟨0, 1, 0⟩, 0, by decide +kernel, by decide +kernel⟩
    | 5, _ => exact ⟨⟨0, 1, 0⟩, 1, by decide +kernel, by decide +kernel⟩

/-- The cube is cut in tetrahedra of total volume one. -/
example : ∃ P, build3 cube = .ok P ∧ tetsVol P.pts P.vols = 1 := by
  obtain ⟨P, bs, h1, -, h3, -, h5⟩ := c161_solid cube cube_proper
  refine ⟨P, h1, ?_⟩
  cases h5 with
  | cons h h' =>
    cases h'
    rw [h3, List.map_singleton, List.flatten_singleton, h.2.2.2.2 cubeFaces ⟨0, 0, 0⟩ (by decide) cube_convex]
    decide +kernel

/-- C161 (averages): the value shown at a point is the common value of all cells that list the point; without such
cells it is zero divided by zero. -/
theorem c161_average [CharZero K] {Q : Type} (val : Nat → Q → K) (p : Q) (cellNodes : List (List Nat)) (n : Nat) (v : K)
    (h : ∀ i l, cellNodes[i]? = some l → n ∈ l → val i p = v) :
    average val p cellNodes n = if ∃ l ∈ cellNodes, n ∈ l then some v else none := by
  have hv : ∀ x ∈ (cellNodes.zipIdx.map fun c => (c.1.filter (· == n)).map fun _ => val c.2 p).flatten, x = v := by
    intro x hx
    obtain ⟨l, hl, hx⟩ := List.mem_flatten.1 hx
    obtain ⟨c, hc, rfl⟩ := List.mem_map.1 hl
    obtain ⟨k, hk, rfl⟩ := List.mem_map.1 hx
    have hk := List.mem_filter.1 hk
    have hn : k = n := by simpa using hk.2
    exact h c.2 c.1 (List.mk_mem_zipIdx_iff_getElem?.1 hc) (hn ▸ hk.1)
  have he : (cellNodes.zipIdx.map fun c => (c.1.filter (· == n)).map fun _ => val c.2 p).flatten ≠ [] ↔
      ∃ l ∈ cellNodes, n ∈ l := by
    constructor
    · intro hne
      obtain ⟨x, hx⟩ := List.exists_mem_of_ne_nil _ hne
      obtain ⟨l, hl, hx⟩ := List.mem_flatten.1 hx
      obtain ⟨c, hc, rfl⟩ := List.mem_map.1 hl
      obtain ⟨k, hk, rfl⟩ := List.mem_map.1 hx
      have hk := List.mem_filter.1 hk
      have hn : k = n := by simpa using hk.2
      exact ⟨c.1, List.mem_of_getElem? (List.mk_mem_zipIdx_iff_getElem?.1 hc), hn ▸ hk.1⟩
    · rintro ⟨l, hl, hn⟩
      obtain ⟨i, hi, rfl⟩ := List.getElem_of_mem hl
      refine List.ne_nil_of_mem (a := val i p) (List.mem_flatten.2
        ⟨_, List.mem_map.2 ⟨(cellNodes[i], i), List.mk_mem_zipIdx_iff_getElem?.2 (List.getElem?_eq_getElem hi), rfl⟩, ?_⟩)
      exact List.mem_map.2 ⟨n, List.mem_filter.2 ⟨hn, by simp⟩, rfl⟩
  unfold average
  dsimp only
  generalize (cellNodes.zipIdx.map fun c => (c.1.filter (· == n)).map fun _ => val c.2 p).flatten = vs at *
  by_cases hvs : vs = []
  · rw [if_pos (by rw [hvs]; rfl), if_neg (by rw [← he]; exact fun h => h hvs)]
  · rw [if_neg (fun h => hvs (List.length_eq_zero_iff.1 h)), if_pos (he.1 hvs)]
    have hl : (vs.length : K) ≠ 0 := by
      have := List.length_pos_iff.2 hvs
      exact_mod_cast this.ne'
    rw [List.eq_replicate_of_mem hv, List.sum_replicate, List.length_replicate, nsmul_eq_mul]
    congr 1
    field_simp

/-- C161 (no point without value): if every node is a node of a cell and every face with more than three nodes is a
face of a cell that is no tetrahedron, every point is listed for a cell. A displacement that is the same seen from all
cells is therefore shown as it is. -/
theorem c161_displacement [CharZero K] (m : Mesh3 K) (hw : Proper3 m.nNodes m.pts m.faces m.cells)
    (hn : ∀ i < m.nNodes, ∃ c ∈ m.cells, i ∈ c.1)
    (hf : ∀ j < m.faces.length, 3 < (m.faces.getD j []).length → ∃ c ∈ m.cells, c.1.length ≠ 4 ∧ j ∈ c.2)
    (val : Nat → P3 K → K) (u : P3 K → K) :
    ∃ P, build3 m = .ok P ∧ ∀ i p, P.pts[i]? = some p → (∀ k l, P.cellNodes[k]? = some l → i ∈ l → val k p = u p) →
      average val p P.cellNodes i = some (u p) := by
  obtain ⟨P, fn, bs, h1, h2, h3, h4, h5, h6, h7⟩ := build3_spec m (readable_of_proper hw)
  refine ⟨P, h1, fun i p hp hv => ?_⟩
  rw [c161_average val p P.cellNodes i (u p) hv, if_pos]
  have cell : ∀ c ∈ m.cells, ∃ b ∈ bs, CellRel m.pts P.pts fn c b := by
    intro c hc
    obtain ⟨k, hk, rfl⟩ := List.getElem_of_mem hc
    have hk' : k < bs.length := by rw [← h6.length_eq]; exact hk
    exact ⟨_, List.getElem_mem hk', (List.forall₂_iff_get.1 h6).2 k hk hk'⟩
  have hi : i < P.pts.length := (List.getElem?_eq_some_iff.1 hp).1
  by_cases hlt : i < m.nNodes
  · obtain ⟨c, hc, hic⟩ := hn i hlt
    obtain ⟨b, hb, hr⟩ := cell c hc
    refine ⟨b.2, by rw [h4]; exact List.mem_map_of_mem hb, ?_⟩
    rcases hr with ⟨x, y, z, w, hx, rfl⟩ | ⟨_, a, _, rfl⟩
    · rwa [hx] at hic
    · simp [hic]
  · rcases h7 i (by omega) hi with ⟨j, f, hj, hl, hg⟩ | h
    · have hjl : j < m.faces.length := (List.getElem?_eq_some_iff.1 hj).1
      obtain ⟨c, hc, h4', hjc⟩ := hf j hjl (by rw [List.getD_eq_getElem?_getD, hj]; exact hl)
      obtain ⟨b, hb, hr⟩ := cell c hc
      refine ⟨b.2, by rw [h4]; exact List.mem_map_of_mem hb, ?_⟩
      rcases hr with ⟨x, y, z, w, hx, rfl⟩ | ⟨_, a, _, rfl⟩
      · rw [hx] at h4'; exact absurd rfl h4'
      · refine List.mem_append_right _ ?_
        have hg' : fn.getD j [] = f ++ [i] := by rw [List.getD_eq_getElem?_getD, hg]; rfl
        rw [cellFaces_nodes]
        exact ⟨j, hjc, by rw [hg']; exact (fan_second hl i).1, by rw [hg']; exact (fan_second hl i).2.symm⟩
    · exact h

example (u : P3 ℚ → ℚ) : ∃ P, build3 cube = .ok P ∧ ∀ i p, P.pts[i]? = some p →
    average (fun _ => u) p P.cellNodes i = some (u p) := by
  obtain ⟨P, h1, h2⟩ := c161_displacement cube cube_proper (by decide) (by decide) (fun _ => u) u
  exact ⟨P, h1, fun i p hp => h2 i p hp fun _ _ _ _ => rfl⟩

theorem mapM_forall₂ {α β : Type} (f : α → Option β) (R : α → β → Prop) (l : List α)
    (h : ∀ x ∈ l, ∃ y, f x = some y ∧ R x y) : ∃ ys, l.mapM f = some ys ∧ List.Forall₂ R l ys := by
  induction l with
  | nil => exact ⟨[], rfl, .nil⟩
  | cons x xs ih =>
    obtain ⟨y, hy, hr⟩ := h x List.mem_cons_self
    obtain ⟨ys, h1, h2⟩ := ih fun z hz => h z (List.mem_cons_of_mem _ hz)
    exact ⟨y :: ys, by rw [List.mapM_cons, hy, h1]; rfl, .cons hr h2⟩

/-- C161 (plane): for convex cells, listed along their boundary either way round, the points are the nodes, the lists
kept are the nodes of the cells, and the triangles come cell by cell. Their corners are nodes of the cell, they tile
it, and their areas add up to its area. -/
theorem c161_plane_partial [LinearOrder K] [IsStrictOrderedRing K] (m : Mesh2 K) (hn : m.nNodes ≤ m.pts.length)
    (hc : ∀ c ∈ m.cells, (∀ i ∈ c, i < m.nNodes) ∧ c.length ≤ 80) :
    ∃ P bs, build2 m = .ok (some P) ∧ P.pts = m.pts.take m.nNodes ∧ P.surfs = List.flatten bs ∧ P.cellNodes = m.cells ∧
      List.Forall₂ (fun c b => (∀ t ∈ b, t.1 ∈ c ∧ t.2.1 ∈ c ∧ t.2.2 ∈ c) ∧
        ∀ q, q = pointsOf2 m.pts c ∨ q = (pointsOf2 m.pts c).reverse → TurnsLeft q → q.Nodup → 0 < shoelace q →
          b.length = c.length - 2 ∧
          Tiles (b.map fun t => (P.pts.getD t.1 ⟨0, 0⟩, P.pts.getD t.2.1 ⟨0, 0⟩, P.pts.getD t.2.2 ⟨0, 0⟩)) q ∧
          (b.map fun t => turn (P.pts.getD t.1 ⟨0, 0⟩) (P.pts.getD t.2.1 ⟨0, 0⟩) (P.pts.getD t.2.2 ⟨0, 0⟩)).sum =
            shoelace q) m.cells bs := by
  have key : ∀ c ∈ m.cells, ∃ b, cellTris m.pts c = some b ∧ ((∀ t ∈ b, t.1 ∈ c ∧ t.2.1 ∈ c ∧ t.2.2 ∈ c) ∧
        ∀ q, q = pointsOf2 m.pts c ∨ q = (pointsOf2 m.pts c).reverse → TurnsLeft q → q.Nodup → 0 < shoelace q →
          b.length = c.length - 2 ∧
          Tiles (b.map fun t => ((m.pts.take m.nNodes).getD t.1 ⟨0, 0⟩, (m.pts.take m.nNodes).getD t.2.1 ⟨0, 0⟩,
            (m.pts.take m.nNodes).getD t.2.2 ⟨0, 0⟩)) q ∧
          (b.map fun t => turn ((m.pts.take m.nNodes).getD t.1 ⟨0, 0⟩) ((m.pts.take m.nNodes).getD t.2.1 ⟨0, 0⟩)
            ((m.pts.take m.nNodes).getD t.2.2 ⟨0, 0⟩)).sum = shoelace q) := by
    intro c hcm
    obtain ⟨hin, h80⟩ := hc c hcm
    have hl : (coords2 m.pts c).length = c.length := List.length_map _
    obtain ⟨ts, h1, h2, tp, h3, -⟩ := Earcut.c160_indices (coords2 m.pts c) (by rw [hl]; exact h80)
    rw [hl] at h2
    have hat : ∀ k, k < c.length → (m.pts.take m.nNodes).getD (c.getD k 0) ⟨0, 0⟩ = (coords2 m.pts c).getD k ⟨0, 0⟩ := by
      intro k hk
      have hm := hin _ (List.getElem_mem hk)
      simp only [List.getD_eq_getElem?_getD, coords2, List.getElem?_map, List.getElem?_eq_getElem hk, Option.map_some,
        Option.getD_some]
      rw [List.getElem?_take_of_lt hm]
    have hmem : ∀ k, k < c.length → c.getD k 0 ∈ c := by
      intro k hk
      rw [List.getD_eq_getElem?_getD, List.getElem?_eq_getElem hk]
      exact List.getElem_mem hk
    have hts : (ts.map fun t => (c.getD t.1 0, c.getD t.2.1 0, c.getD t.2.2 0)).map (fun t =>
        ((m.pts.take m.nNodes).getD t.1 ⟨0, 0⟩, (m.pts.take m.nNodes).getD t.2.1 ⟨0, 0⟩,
          (m.pts.take m.nNodes).getD t.2.2 ⟨0, 0⟩)) = tp := by
      have : tp = ts.map fun t => ((coords2 m.pts c).getD t.1 ⟨0, 0⟩, (coords2 m.pts c).getD t.2.1 ⟨0, 0⟩,
          (coords2 m.pts c).getD t.2.2 ⟨0, 0⟩) := by
        rw [Verif.Earcut.splitTriangles, h1] at h3
        exact (Option.some.inj h3).symm
      rw [this, List.map_map]
      refine List.map_congr_left fun t ht => ?_
      obtain ⟨a, b, d⟩ := h2 t ht
      simp only [Function.comp, hat _ a, hat _ b, hat _ d]
    refine ⟨_, by rw [cellTris, h1]; rfl, ?_, ?_⟩
    · intro t ht
      obtain ⟨t', ht', rfl⟩ := List.mem_map.1 ht
      obtain ⟨a, b, d⟩ := h2 t' ht'
      exact ⟨hmem _ a, hmem _ b, hmem _ d⟩
    · intro q hq ht hnd hs
      obtain ⟨tp', g1, g2, -, g4, g5, -⟩ := Earcut.c160_convex_partial (coords2 m.pts c) q (by rw [hl]; exact h80) hq ht
        hnd hs
      rw [h3] at g1
      obtain rfl := Option.some.inj g1
      refine ⟨?_, by rw [hts]; exact g4, ?_⟩
      · rw [← hl, ← g2, ← hts]; simp
      · rw [← g5, ← hts]; simp only [List.map_map]; rfl
  obtain ⟨bs, h1, h2⟩ := mapM_forall₂ (cellTris m.pts) _ m.cells key
  refine ⟨⟨m.pts.take m.nNodes, bs.flatten, m.cells⟩, bs, ?_, rfl, rfl, rfl, h2⟩
  rw [build2, if_pos ⟨hn, fun c hcm i hi => lt_of_lt_of_le ((hc c hcm).1 i hi) hn⟩, h1]
  rfl

/-- A mesh of a square with five nodes. -/
example : ∃ P : Post2 ℚ, build2 ⟨Earcut.square5, 5, [[0, 1, 2, 3, 4]]⟩ = .ok (some P) ∧
    (P.surfs.map fun t => turn (P.pts.getD t.1 ⟨0, 0⟩) (P.pts.getD t.2.1 ⟨0, 0⟩) (P.pts.getD t.2.2 ⟨0, 0⟩)).sum = 8 := by
  obtain ⟨P, bs, h1, -, h3, -, h5⟩ := c161_plane_partial ⟨Earcut.square5, 5, [[0, 1, 2, 3, 4]]⟩ (by decide) (by decide)
  refine ⟨P, h1, ?_⟩
  cases h5 with
  | cons h h' =>
    cases h'
    rw [h3, List.flatten_singleton, (h.2 Earcut.square5 (.inl rfl) Earcut.square5_turns (by decide +kernel)
      (by decide +kernel)).2.2]
    decide +kernel

/-- C161 (violated): a Cartesian mesh of the plane loses half of every cell: the square is stored as one triangle. -/
theorem c161_cartesian_violated :
    ∃ P : Post2 ℚ, build2 ⟨[⟨0, 0⟩, ⟨1, 0⟩, ⟨0, 1⟩, ⟨1, 1⟩], 4, [[0, 1, 2, 3]]⟩ = .ok (some P) ∧
      P.pts = [⟨0, 0⟩, ⟨1, 0⟩, ⟨0, 1⟩, ⟨1, 1⟩] ∧ P.surfs = [(0, 3, 2)] := by
  have h : cellTris ([⟨0, 0⟩, ⟨1, 0⟩, ⟨0, 1⟩, ⟨1, 1⟩] : List (P2 ℚ)) [0, 1, 2, 3] = some [(0, 3, 2)] := by decide +kernel
  refine ⟨⟨[⟨0, 0⟩, ⟨1, 0⟩, ⟨0, 1⟩, ⟨1, 1⟩], [(0, 3, 2)], [[0, 1, 2, 3]]⟩, ?_, rfl, rfl⟩
  rw [build2, if_pos (by decide)]
  simp only [List.mapM_cons, List.mapM_nil, h]
  rfl

end Verif.Props.PostMesh
