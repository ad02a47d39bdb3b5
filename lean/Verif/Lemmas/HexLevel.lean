import Verif.Lemmas.HexMesher
import Verif.Spec.HexMesher
import Mathlib.Algebra.BigOperators.Group.List.Basic
import Mathlib.Algebra.Order.Field.Basic
/-! Lemmas for C77: the outcome of `make_level`. -/
namespace Verif.HexMesher
open Verif.HexMesh Spec.HexMesh

/-- Facts about the polygons used by the mesher. -/
structure Facts (l : Nat) (hm : HM) : Prop where
  cm : hm.coordMax = 4 * 2 ^ l
  polys : hm.polys.Perm (raw l).polys
  bnd : hm.bnd = (raw l).bnd
  points : hm.points.Pairwise fun p q => ptLt p q = true
  edges : hm.edges.Pairwise fun e f => edgeLt e f = true
  mem_points : ∀ q, q ∈ hm.points ↔ ∃ P ∈ hm.polys, q ∈ P
  mem_edges : ∀ e, e ∈ hm.edges ↔ e ∈ edgesOf (raw l).polys

theorem map_fst_ring (P : Poly) : (ring P).map Prod.fst = P := by
  rw [ring, List.map_fst_zip]
  cases P <;> simp

theorem ring_mem {P : Poly} {s : Pt × Pt} (h : s ∈ ring P) : s.1 ∈ P ∧ s.2 ∈ P := by
  rw [ring] at h
  obtain ⟨h1, h2⟩ := List.of_mem_zip (a := s.1) (b := s.2) h
  refine ⟨h1, ?_⟩
  rcases List.mem_append.1 h2 with h2 | h2
  · exact List.mem_of_mem_tail h2
  · exact List.mem_of_mem_take h2

theorem facts (l fuel : Nat) (hl : l ≤ 61) (hf : l < fuel) : ∃ hm o, makeHexmesh fuel l = .ok (hm, o) ∧ Facts l hm := by
  obtain ⟨hm, o, h, hc, hp, hb, hpts, hed, -, -⟩ := make_ok l fuel hl hf
  refine ⟨hm, o, h, hc, hp, hb, ?_, ?_, ?_, ?_⟩
  · rw [hpts]
    refine unique_strict ptLt (fun _ _ => ptLt_total) (fun _ _ _ => ptLt_trans) _ ?_
    exact Sort.sortBy_weak ptLt (fun _ _ => ptLt_asymm)
      (neg_trans ptLt (fun _ _ => ptLt_total) (fun _ _ _ => ptLt_trans) fun _ _ => ptLt_asymm) _
  · rw [hed]
    refine unique_strict edgeLt (fun _ _ => edgeLt_total) (fun _ _ _ => edgeLt_trans) _ ?_
    exact Sort.sortBy_weak edgeLt (fun _ _ => edgeLt_asymm)
      (neg_trans edgeLt (fun _ _ => edgeLt_total) (fun _ _ _ => edgeLt_trans) fun _ _ => edgeLt_asymm) _
  · intro q
    rw [hpts, mem_unique, (Sort.sortBy_perm _ _).mem_iff]
    have : q ∈ (raw l).points ↔ ∃ P ∈ (raw l).polys, q ∈ (sides P).map Prod.fst := by
      simp [raw, addTiles, updateGeometry]
    rw [this]
    simp only [sides_eq, map_fst_ring]
    constructor
    · rintro ⟨P, hP, hq⟩; exact ⟨P, hp.mem_iff.2 hP, hq⟩
    · rintro ⟨P, hP, hq⟩; exact ⟨P, hp.mem_iff.1 hP, hq⟩
  · intro e
    rw [hed, mem_unique, (Sort.sortBy_perm _ _).mem_iff]
    simp [raw, addTiles, updateGeometry, edgesOf]

/-- The surface of a polygon. -/
def surfOf (pts : List Pt) (es : List Edge) (p : Poly) : Surf :=
  ⟨(ring p).map fun s => es.idxOf (mkEdge s.1 s.2), p.map fun q => pts.idxOf q⟩

section
variable {l : Nat} {hm : HM} (F : Facts l hm)
include F

theorem Facts.side_mem {P : Poly} (hP : P ∈ hm.polys) {s : Pt × Pt} (hs : s ∈ ring P) :
    mkEdge s.1 s.2 ∈ hm.edges ∧ s.1 ∈ hm.points ∧ s.2 ∈ hm.points ∧ s.1 ≠ s.2 := by
  have hraw : s ∈ (raw l).polys.flatMap ring := List.mem_flatMap.2 ⟨P, F.polys.mem_iff.1 hP, hs⟩
  refine ⟨?_, (F.mem_points _).2 ⟨P, hP, (ring_mem hs).1⟩, (F.mem_points _).2 ⟨P, hP, (ring_mem hs).2⟩, side_proper l hraw⟩
  rw [F.mem_edges, edgesOf_eq]
  exact List.mem_map.2 ⟨s, hraw, rfl⟩

theorem Facts.edge_side {e : Edge} (he : e ∈ hm.edges) : ∃ P ∈ hm.polys, ∃ s ∈ ring P, e = mkEdge s.1 s.2 := by
  rw [F.mem_edges, edgesOf_eq] at he
  obtain ⟨s, hs, rfl⟩ := List.mem_map.1 he
  obtain ⟨P, hP, hs⟩ := List.mem_flatMap.1 hs
  exact ⟨P, F.polys.mem_iff.2 hP, s, hs, rfl⟩

theorem Facts.edge_mem (e : Edge) (he : e ∈ hm.edges) : e.1 ∈ hm.points ∧ e.2 ∈ hm.points ∧ ptLt e.1 e.2 = true := by
  obtain ⟨P, hP, s, hs, rfl⟩ := F.edge_side he
  obtain ⟨-, h1, h2, hne⟩ := F.side_mem hP hs
  unfold mkEdge
  split
  · rename_i h; exact ⟨h2, h1, h⟩
  · rename_i h; exact ⟨h1, h2, ptLt_total (by simpa using h) (Ne.symm hne)⟩

theorem Facts.bnd_mem (s : Side) (e : Edge) (he : e ∈ hm.bnd s) : e ∈ hm.edges := by
  rw [F.bnd, mem_raw_bnd] at he
  obtain ⟨sd, hsd, rfl⟩ := he
  rw [F.mem_edges, edgesOf_eq]
  exact List.mem_map.2 ⟨sd, (mem_raw_sides l sd).2 (bnd_owned hsd), rfl⟩

theorem Facts.bnd_side {e : Edge} (he : e ∈ hm.edges) (s : Side) :
    e ∈ hm.bnd s ↔ onSide hm.coordMax e.1 s ∧ onSide hm.coordMax e.2 s := by
  rw [F.bnd, F.cm]
  exact bnd_iff_side l s e ((F.mem_edges e).1 he)

theorem Facts.bnd_unique {e : Edge} {s s' : Side} (h : e ∈ hm.bnd s) (h' : e ∈ hm.bnd s') : s' = s := by
  have he := F.bnd_mem s e h
  obtain ⟨a, b⟩ := (F.bnd_side he s).1 h
  obtain ⟨a', b'⟩ := (F.bnd_side he s').1 h'
  have hne : e.1 ≠ e.2 := by
    intro h
    have := (F.edge_mem e he).2.2
    rw [h] at this
    have h2 := ptLt_asymm this
    rw [this] at h2
    cases h2
  refine onSide_unique (c := hm.coordMax) ?_ hne a b a' b'
  rw [F.cm]
  have := Nat.two_pow_pos l
  omega

theorem Facts.level (K : Type) [Div K] [NatCast K] (fuel : Nat) (o : Owners) (h : makeHexmesh fuel l = .ok (hm, o)) :
    ∃ info, makeLevel K fuel l = .ok ⟨hm.points.map fun q => ((q.1 : K) / (hm.coordMax : K), (q.2 : K) / (hm.coordMax : K)),
        List.range hm.points.length, hm.edges.map (gOf hm.points), info,
        Sort.sortBy surfLt (hm.polys.map (surfOf hm.points hm.edges)),
        List.replicate (Sort.sortBy surfLt (hm.polys.map (surfOf hm.points hm.edges))).length 0⟩ ∧
      info.length = hm.edges.length ∧
      ∀ e ∈ hm.edges, ((∀ s, e ∉ hm.bnd s) → info[hm.edges.idxOf e]? = some none) ∧
        ∀ s, e ∈ hm.bnd s → info[hm.edges.idxOf e]? = some (some (sideId s)) := by
  obtain ⟨info, h1, h2, h3⟩ := markAll_ok F.points F.edges F.edge_mem hm.bnd [.bottom, .right, .top, .left] F.bnd_mem
    (List.replicate hm.edges.length none) (by simp)
  refine ⟨info, ?_, h2, fun e he => ⟨fun hn => ?_, fun s hs => ?_⟩⟩
  · have hsort : Sort.sortBy gedgeLt (hm.edges.map (gOf hm.points)) = hm.edges.map (gOf hm.points) :=
      Sort.sortBy_id gedgeLt (fun _ _ => gedgeLt_asymm) _ (edges_sorted F.points F.edges F.edge_mem)
    have hsurf : transform (surface hm.points (hm.edges.map (gOf hm.points))) hm.polys = .ok (hm.polys.map (surfOf hm.points hm.edges)) := by
      refine transform_ok _ _ _ fun P hP => ?_
      exact surface_ok F.points F.edges F.edge_mem P fun s hs => ⟨(F.side_mem hP hs).1, (F.side_mem hP hs).2.1⟩
    simp only [makeLevel, h, Outcome.bind_ok, transform_edges F.points F.edges F.edge_mem, hsort, List.length_map, h1, hsurf]
  · rw [(h3 e he).1 fun s _ => hn s, List.getElem?_replicate, if_pos (List.idxOf_lt_length_of_mem he)]
  · exact (h3 e he).2 s (by cases s <;> simp) hs fun s' hs' => F.bnd_unique hs hs'

theorem Facts.idx_inj {e f : Edge} (he : e ∈ hm.edges) (h : hm.edges.idxOf e = hm.edges.idxOf f) : e = f := by
  exact (List.idxOf_inj he).1 h

/-- How often an edge occurs in the surfaces. -/
theorem Facts.count {e : Edge} (he : e ∈ hm.edges) :
    ((hm.polys.map (surfOf hm.points hm.edges)).map fun s => s.edges.count (hm.edges.idxOf e)).sum = uses (raw l).polys e.1 e.2 := by
  have hme : mkEdge e.1 e.2 = e := by
    obtain ⟨-, -, h⟩ := F.edge_mem e he
    rw [mkEdge, if_neg (by rw [ptLt_asymm h]; simp)]
  have hpoly : ∀ P ∈ hm.polys, (surfOf hm.points hm.edges P).edges.count (hm.edges.idxOf e) =
      ((ring P).map fun s => mkEdge s.1 s.2).count e := by
    intro P hP
    simp only [surfOf, List.count_eq_countP, List.countP_map]
    refine List.countP_congr fun s hs => ?_
    simp only [Function.comp, beq_iff_eq]
    exact ⟨fun h => F.idx_inj ((F.side_mem hP hs).1) h, fun h => by rw [h]⟩
  rw [List.map_map]
  have h1 : (hm.polys.map ((fun s : Surf => s.edges.count (hm.edges.idxOf e)) ∘ surfOf hm.points hm.edges)) =
      hm.polys.map fun P => ((ring P).map fun s => mkEdge s.1 s.2).count e :=
    List.map_congr_left fun P hP => hpoly P hP
  rw [h1, (F.polys.map _).sum_eq, ← count_edges, hme, edgesOf_eq, List.map_flatMap, List.count_flatMap]
  rfl

omit F in
theorem poly_shape (l : Nat) {P : Poly} (hP : P ∈ (raw l).polys) : P.Nodup ∧ 3 ≤ P.length := by
  have t1 : ∀ p ∈ Piece.all, p.pts.Nodup ∧ 3 ≤ p.pts.length := by decide
  rw [raw_polys] at hP
  obtain ⟨⟨t, p⟩, -, rfl⟩ := List.mem_map.1 hP
  obtain ⟨a, b⟩ := t1 p (Piece.mem_all p)
  refine ⟨?_, by simpa [place] using b⟩
  simp only [place]
  refine a.map ?_
  intro x y h
  simp only [shift, Prod.mk.injEq] at h
  exact Prod.ext (by omega) (by omega)

/-- Different polygons have different edge lists. -/
theorem Facts.surf_ne {P Q : Poly} (hP : P ∈ hm.polys) (hQ : Q ∈ hm.polys)
    (hd : ∀ s, s ∈ ring P → s ∉ ring Q) : (surfOf hm.points hm.edges P).edges ≠ (surfOf hm.points hm.edges Q).edges := by
  intro h
  have key : (ring P).map (fun s => mkEdge s.1 s.2) = (ring Q).map fun s => mkEdge s.1 s.2 := by
    have h' : (ring P).map (fun s => hm.edges.idxOf (mkEdge s.1 s.2)) = (ring Q).map fun s => hm.edges.idxOf (mkEdge s.1 s.2) := h
    have hlen : (ring P).length = (ring Q).length := by simpa using congrArg List.length h'
    apply List.ext_getElem
    · simpa using hlen
    · intro i h1 h2
      simp only [List.length_map] at h1 h2
      simp only [List.getElem_map]
      have e := congrArg (fun l => l[i]?) h'
      simp only [List.getElem?_map, List.getElem?_eq_getElem h1, List.getElem?_eq_getElem h2, Option.map_some, Option.some.injEq] at e
      exact F.idx_inj (F.side_mem hP (List.getElem_mem h1)).1 e
  obtain ⟨nd, len⟩ := poly_shape l (F.polys.mem_iff.1 hP)
  obtain ⟨nd', len'⟩ := poly_shape l (F.polys.mem_iff.1 hQ)
  clear h hP hQ nd'
  match P, Q, len, len', key, nd, hd with
  | a :: b :: c :: P', a' :: b' :: c' :: Q', _, _, key, nd, hd =>
    simp only [ring, List.tail, List.cons_append, List.zip_cons_cons, List.map_cons, List.cons.injEq] at key
    obtain ⟨e1, e2, -⟩ := key
    have m1 : (a, b) ∈ ring (a :: b :: c :: P') := by simp [ring]
    have m2 : (b, c) ∈ ring (a :: b :: c :: P') := by simp [ring]
    have m1' : (a', b') ∈ ring (a' :: b' :: c' :: Q') := by simp [ring]
    have m2' : (b', c') ∈ ring (a' :: b' :: c' :: Q') := by simp [ring]
    rcases (mkEdge_eq_iff a' b' (a, b)).1 e1 with h1 | h1
    · exact hd _ m1 (h1 ▸ m1')
    · rcases (mkEdge_eq_iff b' c' (b, c)).1 e2 with h2 | h2
      · exact hd _ m2 (h2 ▸ m2')
      · simp only [Prod.mk.injEq] at h1 h2
        have : a = c := by rw [h1.1, h2.2]
        simp [this] at nd

theorem Facts.surfaces_sorted : (Sort.sortBy surfLt (hm.polys.map (surfOf hm.points hm.edges))).Pairwise fun a b => a.edges < b.edges := by
  have h := Sort.sortBy_sorted' surfLt (by
      intro a b c h1 h2
      simp only [surfLt, decide_eq_true_eq] at *
      exact List.lt_trans h1 h2) (hm.polys.map (surfOf hm.points hm.edges)) (by
      rw [List.pairwise_map]
      have hn : (hm.polys.flatMap ring).Nodup := (F.polys.flatMap_right ring).nodup_iff.2 (raw_sides_nodup l)
      refine ((List.nodup_flatMap.1 hn).2).imp_of_mem ?_
      intro P Q hP hQ hd
      have hne := F.surf_ne hP hQ fun s h1 h2 => hd h1 h2
      simp only [surfLt, decide_eq_true_eq]
      by_cases h : (surfOf hm.points hm.edges P).edges < (surfOf hm.points hm.edges Q).edges
      · exact Or.inl h
      · right
        have hle := List.not_lt.1 h
        by_contra h'
        exact hne (List.le_antisymm (List.not_lt.1 h') hle))
  refine h.imp ?_
  intro a b hab
  simpa [surfLt] using hab

end

end Verif.HexMesher
