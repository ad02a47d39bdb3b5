import Verif.Spec.GmshOut
import Verif.Lemmas.GmshOut
/-!
The list of elements of a mesh written for GMSH.
-/
noncomputable section
namespace Verif.GmshOut
open Verif Verif.Spec Verif.Earcut

/-- Kinds and nodes of the elements. -/
def shapes (g : Gmesh) : List (Kind × List Nat) := g.elems.map fun e => (e.kind, e.nodes)

/-- Elements are numbered from one. -/
def Numbered (g : Gmesh) : Prop := g.elems.map Element.num = List.range' 1 g.elems.length

/-- What one step does: nodes stay, elements are appended and numbered. -/
structure Adds (g g' : Gmesh) (s : List (Kind × List Nat)) : Prop where
  nodes : g'.nodes = g.nodes
  shapes : shapes g' = shapes g ++ s
  num : Numbered g → Numbered g'

theorem Adds.refl (g : Gmesh) : Adds g g [] := ⟨rfl, by simp, id⟩

theorem Adds.trans {g g' g'' : Gmesh} {s s' : List (Kind × List Nat)} (h : Adds g g' s) (h' : Adds g' g'' s') :
    Adds g g'' (s ++ s') :=
  ⟨h'.nodes.trans h.nodes, by rw [h'.shapes, h.shapes, List.append_assoc], fun hn => h'.num (h.num hn)⟩

theorem adds_add (g : Gmesh) (k : Kind) (ns : List Nat) : Adds g (g.add k ns) [(k, ns)] := by
  refine ⟨rfl, by simp [shapes, Gmesh.add], fun h => ?_⟩
  unfold Numbered at h ⊢
  simp only [Gmesh.add, List.map_append, List.map_cons, List.map_nil, h, List.length_append, List.length_cons,
    List.length_nil]
  rw [List.range'_concat]
  simp [Nat.add_comm]

/-- A triangle with three nodes. -/
def triShape (t : GNode × GNode × GNode) : Kind × List Nat := (.triangle, [t.1.index, t.2.1.index, t.2.2.index])

theorem adds_fan (n0 : GNode) : ∀ (rest : List GNode) (g : Gmesh),
    Adds g (addFan n0 rest g) (((fan (n0 :: rest)).filter fun t => !aligned t.1 t.2.1 t.2.2).map triShape) := by
  intro rest
  induction rest with
  | nil => intro g; simpa [addFan, fan] using Adds.refl g
  | cons a rest ih =>
    intro g
    cases rest with
    | nil => simpa [addFan, fan] using Adds.refl g
    | cons b rest =>
      rw [addFan, fan]
      cases h : aligned n0 a b with
      | true => simpa [h] using ih g
      | false =>
        have := (adds_add g .triangle [n0.index, a.index, b.index]).trans (ih _)
        simpa [h, triShape] using this

/-- The elements of a cell. -/
def cellShapes (dim : Nat) (l : List GNode) : List (Kind × List Nat) :=
  if dim = 1 then [(.edge, l.map GNode.index)]
  else if dim = 2 then
    let s := pick l (sortNodes2D l)
    if l.length = 3 then [(.triangle, s.map GNode.index)]
    else if l.length = 4 then [(.quadrangle, s.map GNode.index)]
    else ((fan s).filter fun t => !aligned t.1 t.2.1 t.2.2).map triShape
  else
    let s := pick l (sortNodes3D l)
    if l.length = 4 then [(.tetrahedron, s.map GNode.index)]
    else if l.length = 8 then [(.hexahedron, s.map GNode.index)]
    else []

/-- A cell that has enough points. -/
def okLen (dim n : Nat) : Prop := (dim = 1 ∧ n = 2) ∨ (dim = 2 ∧ 3 ≤ n) ∨ (dim = 3 ∧ 4 ≤ n)

theorem addElement_ok {dim : Nat} {g : Gmesh} {l : List GNode} (h : okLen dim l.length) :
    ∃ g', addElement dim g l = .ok g' ∧ Adds g g' (cellShapes dim l) := by
  rcases h with ⟨rfl, h⟩ | ⟨rfl, h⟩ | ⟨rfl, h⟩
  · exact ⟨_, by rw [addElement, if_pos rfl, if_pos h], by rw [cellShapes, if_pos rfl]; exact adds_add _ _ _⟩
  · rw [addElement, if_neg (show ¬ 2 = 1 by decide), if_pos rfl, if_neg (show ¬ l.length < 3 by omega), cellShapes,
      if_neg (show ¬ 2 = 1 by decide), if_pos rfl]
    dsimp only
    split
    · exact ⟨_, rfl, adds_add _ _ _⟩
    split
    · exact ⟨_, rfl, adds_add _ _ _⟩
    · split
      · rename_i n0 rest hs
        exact ⟨_, rfl, by rw [hs]; exact adds_fan n0 rest g⟩
      · rename_i hs
        refine ⟨_, rfl, ?_⟩
        rw [hs]
        simpa [fan] using Adds.refl g
  · rw [addElement, if_neg (show ¬ 3 = 1 by decide), if_neg (show ¬ 3 = 2 by decide), if_pos rfl,
      if_neg (show ¬ l.length < 4 by omega), cellShapes, if_neg (show ¬ 3 = 1 by decide), if_neg (show ¬ 3 = 2 by decide)]
    dsimp only
    split
    · exact ⟨_, rfl, adds_add _ _ _⟩
    split
    · exact ⟨_, rfl, adds_add _ _ _⟩
    · exact ⟨_, rfl, Adds.refl g⟩

theorem addElement_defined {dim : Nat} {g g' : Gmesh} {l : List GNode} (h : addElement dim g l = .ok g') :
    okLen dim l.length := by
  unfold addElement at h
  unfold okLen
  split at h
  · split at h
    · left; exact ⟨by assumption, by assumption⟩
    · cases h
  split at h
  · split at h
    · cases h
    · right; left; exact ⟨by assumption, by omega⟩
  split at h
  · split at h
    · cases h
    · right; right; exact ⟨by assumption, by omega⟩
  · cases h

/-- The nodes of a list of points. -/
def numberNodes (pts : List (P3 ℝ)) : List GNode := pts.zipIdx.map fun e => ⟨e.2 + 1, e.1⟩

theorem addPoints_spec : ∀ (ps : List (P3 ℝ)) (g : Gmesh),
    (addPoints ps g).nodes = g.nodes ++ (ps.zipIdx g.nodes.length).map (fun e => ⟨e.2 + 1, e.1⟩) ∧
    shapes (addPoints ps g) = shapes g ++ (List.range' (g.nodes.length + 1) ps.length).map (fun n => (Kind.vertex, [n])) ∧
    (Numbered g → Numbered (addPoints ps g)) := by
  intro ps
  induction ps with
  | nil => intro g; simp [addPoints]
  | cons p ps ih =>
    intro g
    rw [addPoints]
    obtain ⟨h1, h2, h3⟩ := ih (Gmesh.add { g with nodes := g.nodes ++ [⟨g.nodes.length + 1, p⟩] } .vertex [g.nodes.length + 1])
    have ha := adds_add { g with nodes := g.nodes ++ [⟨g.nodes.length + 1, p⟩] } .vertex [g.nodes.length + 1]
    refine ⟨?_, ?_, fun hn => h3 (ha.num hn)⟩
    · rw [h1, ha.nodes]
      simp [List.zipIdx_cons]
    · rw [h2, ha.shapes, ha.nodes]
      simp [List.range'_succ, shapes]

theorem addEdges_ok : ∀ (es : List (List Nat)) (g : Gmesh), (∀ e ∈ es, e.length = 2) →
    ∃ g', addEdges es g = .ok g' ∧ Adds g g' (es.map fun e => (Kind.edge, e.map (· + 1))) := by
  intro es
  induction es with
  | nil => intro g _; exact ⟨g, rfl, Adds.refl g⟩
  | cons e es ih =>
    intro g h
    obtain ⟨g', h1, h2⟩ := ih (g.add .edge (e.map (· + 1))) fun x hx => h x (List.mem_cons_of_mem _ hx)
    exact ⟨g', by rw [addEdges, if_pos (h e (by simp)), h1], (adds_add _ _ _).trans h2⟩

theorem addEdges_defined : ∀ (es : List (List Nat)) (g g' : Gmesh), addEdges es g = .ok g' → ∀ e ∈ es, e.length = 2 := by
  intro es
  induction es with
  | nil => intro g g' _ e he; simp at he
  | cons a es ih =>
    intro g g' h e he
    rw [addEdges] at h
    split at h
    · rcases List.mem_cons.1 he with rfl | he
      · assumption
      · exact ih _ _ h e he
    · cases h

/-- The nodes of a cell. -/
def cellNodes (pts : List (P3 ℝ)) (c : List Nat) : List GNode := c.map fun i => ⟨i + 1, pts.getD i ⟨0, 0, 0⟩⟩

theorem getD_nodes {pts : List (P3 ℝ)} {i : Nat} (h : i < pts.length) :
    (numberNodes pts).getD i ⟨0, ⟨0, 0, 0⟩⟩ = ⟨i + 1, pts.getD i ⟨0, 0, 0⟩⟩ := by
  simp [numberNodes, h]

theorem addCells_ok {pts : List (P3 ℝ)} {dim : Nat} : ∀ (cs : List (List Nat)) (g : Gmesh), g.nodes = numberNodes pts →
    (∀ c ∈ cs, (∀ i ∈ c, i < pts.length) ∧ okLen dim c.length) →
    ∃ g', addCells dim cs g = .ok g' ∧ Adds g g' (cs.flatMap fun c => cellShapes dim (cellNodes pts c)) := by
  intro cs
  induction cs with
  | nil => intro g _ _; exact ⟨g, rfl, Adds.refl g⟩
  | cons c cs ih =>
    intro g hg h
    obtain ⟨hi, hl⟩ := h c (by simp)
    have hlen : g.nodes.length = pts.length := by rw [hg]; simp [numberNodes]
    have he : (c.map fun i => g.nodes.getD i ⟨0, ⟨0, 0, 0⟩⟩) = cellNodes pts c := by
      refine List.map_congr_left fun i hic => ?_
      rw [hg, getD_nodes (hi i hic)]
    obtain ⟨g1, h1, h2⟩ := addElement_ok (g := g) (l := cellNodes pts c) (dim := dim) (by simpa [cellNodes] using hl)
    obtain ⟨g2, h3, h4⟩ := ih g1 (h2.nodes.trans hg) fun x hx => h x (List.mem_cons_of_mem _ hx)
    refine ⟨g2, ?_, by rw [List.flatMap_cons]; exact h2.trans h4⟩
    rw [addCells, if_pos (by rw [List.all_eq_true]; intro i hic; rw [hlen]; exact decide_eq_true (hi i hic)), he, h1,
      Outcome.bind_ok, h3]

theorem addCells_defined {pts : List (P3 ℝ)} {dim : Nat} : ∀ (cs : List (List Nat)) (g g' : Gmesh),
    g.nodes = numberNodes pts → addCells dim cs g = .ok g' →
    ∀ c ∈ cs, (∀ i ∈ c, i < pts.length) ∧ okLen dim c.length := by
  intro cs
  induction cs with
  | nil => intro g g' _ _ c hc; simp at hc
  | cons c cs ih =>
    intro g g' hg h
    have hlen : g.nodes.length = pts.length := by rw [hg]; simp [numberNodes]
    rw [addCells] at h
    split at h
    · rename_i hall
      rw [List.all_eq_true] at hall
      have hi : ∀ i ∈ c, i < pts.length := fun i hic => by have := hall i hic; rw [decide_eq_true_iff, hlen] at this; exact this
      cases hel : addElement dim g (c.map fun i => g.nodes.getD i ⟨0, ⟨0, 0, 0⟩⟩) with
      | ok g1 =>
        rw [hel, Outcome.bind_ok] at h
        have hl := addElement_defined hel
        obtain ⟨g1', h1, h2⟩ := addElement_ok (g := g) hl
        rw [hel] at h1
        cases h1
        intro x hx
        rcases List.mem_cons.1 hx with rfl | hx
        · exact ⟨hi, by simpa using hl⟩
        · exact ih g1 g' (h2.nodes.trans hg) h x hx
      | _ => rw [hel] at h; cases h
    · cases h

/-- The meshes that are converted. -/
def Valid (m : Mesh) : Prop :=
  (∀ e ∈ m.edges, e.length = 2) ∧ ∀ c ∈ m.cells, (∀ i ∈ c, i < m.pts.length) ∧ okLen m.dim c.length

/-- Vertices and edges. -/
def head (m : Mesh) : List (Kind × List Nat) :=
  (List.range' 1 m.pts.length).map (fun n => (Kind.vertex, [n])) ++ m.edges.map fun e => (Kind.edge, e.map (· + 1))

theorem points_nodes (m : Mesh) : (addPoints m.pts ⟨[], []⟩).nodes = numberNodes m.pts := by
  rw [(addPoints_spec m.pts ⟨[], []⟩).1]; simp [numberNodes]

theorem head_ok {m : Mesh} (h : ∀ e ∈ m.edges, e.length = 2) :
    ∃ g, addEdges m.edges (addPoints m.pts ⟨[], []⟩) = .ok g ∧ g.nodes = numberNodes m.pts ∧ shapes g = head m ∧
      Numbered g := by
  obtain ⟨-, p2, p3⟩ := addPoints_spec m.pts ⟨[], []⟩
  obtain ⟨g, h1, h2⟩ := addEdges_ok m.edges (addPoints m.pts ⟨[], []⟩) h
  refine ⟨g, h1, h2.nodes.trans (points_nodes m), ?_, h2.num (p3 rfl)⟩
  rw [h2.shapes, p2]
  simp [head, shapes]

theorem convert_ok {m : Mesh} (h : Valid m) :
    ∃ g, convertMesh m = .ok g ∧ g.nodes = numberNodes m.pts ∧ Numbered g ∧
      shapes g = head m ++ m.cells.flatMap fun c => cellShapes m.dim (cellNodes m.pts c) := by
  obtain ⟨g, h1, h2, h3, h4⟩ := head_ok h.1
  obtain ⟨g', h5, h6⟩ := addCells_ok (dim := m.dim) m.cells g h2 h.2
  exact ⟨g', by rw [convertMesh, h1, Outcome.bind_ok, h5], h6.nodes.trans h2, h6.num h4, by rw [h6.shapes, h3]⟩

theorem convert_valid {m : Mesh} {g : Gmesh} (h : convertMesh m = .ok g) : Valid m := by
  unfold convertMesh at h
  cases he : addEdges m.edges (addPoints m.pts ⟨[], []⟩) with
  | ok g1 =>
    rw [he, Outcome.bind_ok] at h
    have hv := addEdges_defined _ _ _ he
    obtain ⟨g1', h1, h2, -⟩ := head_ok hv
    rw [he] at h1
    cases h1
    exact ⟨hv, addCells_defined _ _ _ h2 h⟩
  | _ => rw [he] at h; cases h

theorem convert_spec {m : Mesh} {g : Gmesh} (h : convertMesh m = .ok g) :
    g.nodes = numberNodes m.pts ∧ Numbered g ∧
      shapes g = head m ++ m.cells.flatMap fun c => cellShapes m.dim (cellNodes m.pts c) := by
  obtain ⟨g', h1, h2⟩ := convert_ok (convert_valid h)
  rw [h] at h1
  cases h1
  exact h2

/-! Cells of the plane. -/

theorem mem_cellNodes {pts : List (P3 ℝ)} {c : List Nat} {n : GNode} (h : n ∈ cellNodes pts c) :
    n.coor = nodeAt pts n.index := by
  obtain ⟨i, -, rfl⟩ := List.mem_map.1 h
  simp [nodeAt]

theorem map_pt {pts : List (P3 ℝ)} {c : List Nat} {s : List GNode} (h : ∀ n ∈ s, n ∈ cellNodes pts c) :
    ((s.map GNode.index).map fun n => flat2 (nodeAt pts n)) = s.map pt := by
  rw [List.map_map]
  refine List.map_congr_left fun n hn => ?_
  show flat2 (nodeAt pts n.index) = pt n
  rw [← mem_cellNodes (h n hn)]
  rfl

theorem cell_pt (pts : List (P3 ℝ)) (c : List Nat) :
    (cellNodes pts c).map pt = c.map fun i => flat2 (nodeAt pts (i + 1)) := by
  simp [cellNodes, nodeAt, pt, flat2]

theorem index_cell (pts : List (P3 ℝ)) (c : List Nat) : (cellNodes pts c).map GNode.index = c.map (· + 1) := by
  simp [cellNodes]

/-- The sorted nodes of a convex cell. -/
theorem cell_along {pts : List (P3 ℝ)} {c : List Nat} {q : List (P2 ℝ)}
    (hp : (c.map fun i => flat2 (nodeAt pts (i + 1))).Perm q) (hq : ConvexRing q) :
    let s := pick (cellNodes pts c) (sortNodes2D (cellNodes pts c))
    (s.map GNode.index).Perm (c.map (· + 1)) ∧ Along pts (s.map GNode.index) q ∧
      ∃ k, s.map pt = q.rotate k := by
  intro s
  have hs := (sorted_spec (cellNodes pts c)).1
  obtain ⟨k, hk⟩ := sorted_ring (l := cellNodes pts c) (by rw [cell_pt]; exact hp) hq.1 hq.2.1 hq.2.2
  refine ⟨?_, ⟨k, ?_⟩, k, hk⟩
  · rw [← index_cell]; exact hs.map _
  · rw [map_pt (c := c) fun n hn => hs.mem_iff.1 hn]; exact hk

theorem fan_sub {α : Type} {l : List α} {t : α × α × α} (h : t ∈ fan l) : t.1 ∈ l ∧ t.2.1 ∈ l ∧ t.2.2 ∈ l :=
  fan_mem _ _ le_rfl t h

theorem cross_turn (a b c : GNode) : cross2 a.coor b.coor c.coor = turn (pt a) (pt b) (pt c) := rfl

/-- The triangles of a convex cell with many nodes. -/
theorem cell_tiles {pts : List (P3 ℝ)} {c : List Nat} {q : List (P2 ℝ)}
    (hp : (c.map fun i => flat2 (nodeAt pts (i + 1))).Perm q) (hq : ConvexRing q) (hr : Resolved (1 / 10 ^ 8) q) :
    let s := pick (cellNodes pts c) (sortNodes2D (cellNodes pts c))
    let ts := (fan s).filter fun t => !aligned t.1 t.2.1 t.2.2
    Tiles (ts.map fun t => triangleAt pts (t.1.index, t.2.1.index, t.2.2.index)) q := by
  intro s ts
  obtain ⟨-, -, k, hk⟩ := cell_along hp hq
  have hs := (sorted_spec (cellNodes pts c)).1
  have hat : ∀ n ∈ s, flat2 (nodeAt pts n.index) = pt n := fun n hn => by
    rw [← mem_cellNodes (hs.mem_iff.1 hn)]; rfl
  have hmem : ∀ n ∈ s, pt n ∈ q := fun n hn => by
    rw [← List.mem_rotate (n := k), ← hk]; exact List.mem_map_of_mem hn
  have e1 : (ts.map fun t => triangleAt pts (t.1.index, t.2.1.index, t.2.2.index)) =
      (fan (q.rotate k)).filter fun t => decide (1 / 10 ^ 8 ≤ turn t.1 t.2.1 t.2.2) := by
    rw [← hk, fan_map _ _ _ le_rfl, List.filter_map]
    have e2 : ts = (fan s).filter ((fun t : P2 ℝ × P2 ℝ × P2 ℝ => decide (1 / 10 ^ 8 ≤ turn t.1 t.2.1 t.2.2)) ∘
        fun t => (pt t.1, pt t.2.1, pt t.2.2)) := by
      refine List.filter_congr fun t _ => ?_
      rw [aligned, cross_turn]
      simp only [Function.comp, ← not_lt, decide_not]
    rw [← e2]
    refine List.map_congr_left fun t ht => ?_
    obtain ⟨m1, m2, m3⟩ := fan_sub (List.mem_filter.1 ht).1
    simp only [triangleAt, hat _ m1, hat _ m2, hat _ m3]
  rw [e1]
  refine tiles_filter (fan_tiles hq.1 hq.2.1 hq.2.2 k) _ fun t ht h => ?_
  obtain ⟨m1, m2, m3⟩ := fan_sub ht
  rw [decide_eq_true_iff]
  exact hr _ (List.mem_rotate.1 m1) _ (List.mem_rotate.1 m2) _ (List.mem_rotate.1 m3) h

/-! Triangles and tetrahedra. -/

theorem shoelace3 (a b c : P2 ℝ) : shoelace [a, b, c] = turn a b c := by
  simp [shoelace, sides, turn]
  ring

theorem ring3 {a b c : P2 ℝ} (h : 0 < turn a b c) : ConvexRing [a, b, c] := by
  refine ⟨fun x y z hs => ?_, ?_, by rw [shoelace3]; exact h⟩
  · have := hs.eq_of_length (by simp)
    simp only [List.cons.injEq, and_true] at this
    obtain ⟨rfl, rfl, rfl⟩ := this
    exact h.le
  · have h1 : a ≠ b := fun e => by subst e; simp [turn] at h
    have h2 : a ≠ c := fun e => by subst e; simp [turn] at h
    have h3 : b ≠ c := fun e => by subst e; unfold turn at h; linarith [mul_comm (b.x - a.x) (b.y - a.y)]
    simp [h1, h2, h3]

theorem rot3 {a b c : P2 ℝ} {l : List (P2 ℝ)} {k : Nat} (h : l = [a, b, c].rotate k) :
    ∃ x y z, l = [x, y, z] ∧ turn x y z = turn a b c := by
  rw [← List.rotate_mod] at h
  have hk : k % [a, b, c].length < 3 := Nat.mod_lt _ (by simp)
  generalize k % [a, b, c].length = j at h hk
  subst h
  obtain rfl | rfl | rfl : j = 0 ∨ j = 1 ∨ j = 2 := by omega
  · exact ⟨a, b, c, rfl, rfl⟩
  · exact ⟨b, c, a, rfl, by unfold turn; ring⟩
  · exact ⟨c, a, b, rfl, by unfold turn; ring⟩

theorem sorted_triangle {l : List GNode} {a b c : P2 ℝ} (hl : l.map pt = [a, b, c]) (h : turn a b c ≠ 0) :
    ∃ x y z, (pick l (sortNodes2D l)).map pt = [x, y, z] ∧ 0 < turn x y z := by
  rcases lt_or_gt_of_ne h with h | h
  · have h' : 0 < turn a c b := by have : turn a c b = -turn a b c := by unfold turn; ring
                                   linarith
    obtain ⟨k, hk⟩ := sorted_ring (l := l) (q := [a, c, b]) (by rw [hl]; exact (List.Perm.swap c b []).cons a)
      (ring3 h').1 (ring3 h').2.1 (ring3 h').2.2
    obtain ⟨x, y, z, e, ht⟩ := rot3 hk
    exact ⟨x, y, z, e, by rw [ht]; exact h'⟩
  · obtain ⟨k, hk⟩ := sorted_ring (l := l) (q := [a, b, c]) (by rw [hl])
      (ring3 h).1 (ring3 h).2.1 (ring3 h).2.2
    obtain ⟨x, y, z, e, ht⟩ := rot3 hk
    exact ⟨x, y, z, e, by rw [ht]; exact h⟩

theorem volume_vol6 (a b c d : P3 ℝ) : volumeSigned a b c d = vol6 a b c d := by
  unfold volumeSigned vol6; ring

theorem sorted_tetrahedron (a b c d : GNode) (h : vol6 a.coor b.coor c.coor d.coor ≠ 0) :
    ∃ y z w, pick [a, b, c, d] (sortNodes3D [a, b, c, d]) = [a, y, z, w] ∧ [a, y, z, w].Perm [a, b, c, d] ∧
      0 < vol6 a.coor y.coor z.coor w.coor := by
  unfold sortNodes3D
  simp only
  split
  · rename_i hv
    rw [volume_vol6] at hv
    exact ⟨b, c, d, rfl, List.Perm.refl _, hv⟩
  · rename_i hv
    rw [volume_vol6] at hv
    refine ⟨d, c, b, rfl, ?_, ?_⟩
    · exact ((List.reverse_perm [b, c, d]).cons a)
    · have e : vol6 a.coor d.coor c.coor b.coor = -vol6 a.coor b.coor c.coor d.coor := by unfold vol6; ring
      rw [e]
      rcases lt_or_gt_of_ne h with h | h
      · linarith
      · exact absurd h hv

/-! Meshes for post-processing. -/

theorem sort2_lt {l : List GNode} {i : Nat} (h : i ∈ sortNodes2D l) : i < l.length := by
  have := (selSort_spec (fun i => angle (mean l) (l.getD i ⟨0, ⟨0, 0, 0⟩⟩).coor) l.length (List.range l.length) (by simp)).1
  exact List.mem_range.1 (this.mem_iff.1 h)

/-- The nodes of a cell of a `PostMesh`. -/
def postNodes (pts : List (P3 ℝ)) (c : List Nat) : List GNode :=
  c.zipIdx.map fun e => ⟨e.2 + 1, pts.getD e.1 ⟨0, 0, 0⟩⟩

theorem postNodes_length (pts : List (P3 ℝ)) (c : List Nat) : (postNodes pts c).length = c.length := by
  simp [postNodes]

theorem postNodes_getD (pts : List (P3 ℝ)) (c : List Nat) {i : Nat} (h : i < c.length) :
    ((postNodes pts c).getD i ⟨0, ⟨0, 0, 0⟩⟩).coor = nodeAt pts (c.getD i 0 + 1) := by
  simp [postNodes, nodeAt, h]

theorem post_pt (pts : List (P3 ℝ)) (c : List Nat) :
    (postNodes pts c).map pt = c.map fun i => flat2 (nodeAt pts (i + 1)) := by
  apply List.ext_getElem
  · simp [postNodes]
  · intro i h1 h2
    simp [postNodes, nodeAt, pt, flat2]

theorem post_sorted (pts : List (P3 ℝ)) (c : List Nat) {s : List Nat} (h : ∀ i ∈ s, i < c.length) :
    (s.map fun i => c.getD i 0 + 1).map (nodeAt pts) = (pick (postNodes pts c) s).map GNode.coor := by
  unfold pick
  rw [List.map_map, List.map_map]
  exact List.map_congr_left fun i hi => (postNodes_getD pts c (h i hi)).symm

/-- The elements of a cell of a `PostMesh`. -/
def postShapes (dim : Nat) (pts : List (P3 ℝ)) (c : List Nat) : List (Kind × List Nat) :=
  if dim = 2 then
    if c.length = 3 then [(.triangle, (sortNodes2D (postNodes pts c)).map fun i => c.getD i 0 + 1)] else []
  else if c.length = 4 then [(.tetrahedron, (sortNodes3D (postNodes pts c)).map fun i => c.getD i 0 + 1)] else []

theorem postCells_ok {add : Gmesh → List Nat → Outcome Gmesh} {f : List Nat → List (Kind × List Nat)} {n : Nat} :
    ∀ (cs : List (List Nat)) (g : Gmesh), (∀ c ∈ cs, ∀ i ∈ c, i < n) →
    (∀ c ∈ cs, ∀ g, ∃ g', add g c = .ok g' ∧ Adds g g' (f c)) →
    ∃ g', postCells add n cs g = .ok g' ∧ Adds g g' (cs.flatMap f) := by
  intro cs
  induction cs with
  | nil => intro g _ _; exact ⟨g, rfl, Adds.refl g⟩
  | cons c cs ih =>
    intro g hi ha
    obtain ⟨g1, h1, h2⟩ := ha c (by simp) g
    obtain ⟨g2, h3, h4⟩ := ih g1 (fun x hx => hi x (List.mem_cons_of_mem _ hx)) fun x hx => ha x (List.mem_cons_of_mem _ hx)
    refine ⟨g2, ?_, by rw [List.flatMap_cons]; exact h2.trans h4⟩
    rw [postCells, if_pos (by rw [List.all_eq_true]; exact fun i hic => decide_eq_true (hi c (by simp) i hic)), h1,
      Outcome.bind_ok, h3]

theorem convertPost_ok {m : Mesh} (he : ∀ e ∈ m.edges, e.length = 2) (hd : m.dim = 2 ∨ m.dim = 3)
    (hc : ∀ c ∈ m.cells, c ≠ [] ∧ ∀ i ∈ c, i < m.pts.length) :
    ∃ g, convertPost m = .ok g ∧ g.nodes = numberNodes m.pts ∧ Numbered g ∧
      shapes g = head m ++ m.cells.flatMap (postShapes m.dim m.pts) := by
  obtain ⟨g, h1, h2, h3, h4⟩ := head_ok he
  rw [convertPost, h1, Outcome.bind_ok]
  rcases hd with hd | hd
  · rw [if_pos hd]
    obtain ⟨g', h5, h6⟩ := postCells_ok (add := postTriangle m.pts) (f := postShapes m.dim m.pts) m.cells g
      (fun c h => (hc c h).2) fun c h g => by
        have hne : c.length ≠ 0 := fun h0 => (hc c h).1 (List.length_eq_zero_iff.1 h0)
        have hl : (c.zipIdx.map fun e => (⟨e.2 + 1, m.pts.getD e.1 ⟨0, 0, 0⟩⟩ : GNode)).length = c.length := by simp
        refine ⟨_, by simp only [postTriangle]; rw [hl, if_neg hne], ?_⟩
        rw [postShapes, if_pos hd]
        split
        · exact adds_add _ _ _
        · exact Adds.refl g
    exact ⟨g', h5, h6.nodes.trans h2, h6.num h4, by rw [h6.shapes, h3]⟩
  · rw [if_neg (by omega), if_pos hd]
    obtain ⟨g', h5, h6⟩ := postCells_ok (add := postTetrahedron m.pts) (f := postShapes m.dim m.pts) m.cells g
      (fun c h => (hc c h).2) fun c h g => by
        have hl : (c.zipIdx.map fun e => (⟨e.2 + 1, m.pts.getD e.1 ⟨0, 0, 0⟩⟩ : GNode)).length = c.length := by simp
        refine ⟨_, by simp only [postTetrahedron]; rw [hl], ?_⟩
        rw [postShapes, if_neg (show ¬ m.dim = 2 by omega)]
        split
        · exact adds_add _ _ _
        · exact Adds.refl g
    exact ⟨g', h5, h6.nodes.trans h2, h6.num h4, by rw [h6.shapes, h3]⟩

end Verif.GmshOut
