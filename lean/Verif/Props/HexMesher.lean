import Verif.Lemmas.HexLevel
import Verif.Lemmas.HexCount
import Mathlib.Data.Rat.Cast.Defs
/-!
C77: the generic mesh built from the hexagonal generator is consistent.
-/
namespace Verif.Props.HexMesher
open Verif Verif.HexMesh Verif.HexMesher Verif.Spec.HexMesh Verif.Spec.HexMesher

/-- C77: the call succeeds, the containers have matching sizes and are strictly sorted, so that every cell and face
of the mesh can be looked up. -/
theorem c77_containers (K : Type) [Div K] [NatCast K] (l fuel : Nat) (hl : l ≤ 61) (hf : l < fuel) :
    ∃ m : GMesh K, makeLevel K fuel l = .ok m ∧ m.nodes = List.range m.points.length ∧
      (m.edges.Pairwise fun e f => gedgeLt e f = true) ∧ (m.surfaces.Pairwise fun a b => a.edges < b.edges) ∧
      (∀ e ∈ m.edges, e.ids.1 < e.ids.2 ∧ e.ids.2 < m.points.length ∧ e.pts = e.ids) ∧
      m.bnd.length = m.edges.length ∧ m.subdomains = List.replicate m.surfaces.length 0 ∧
      m.surfaces.length = 4 * 2 ^ l * 2 ^ l + 3 * 2 ^ l := by
  obtain ⟨hm, o, h, F⟩ := facts l fuel hl hf
  obtain ⟨info, h1, h2, -⟩ := F.level K fuel o h
  refine ⟨_, h1, by simp, edges_sorted F.points F.edges F.edge_mem, F.surfaces_sorted, ?_, by simpa using h2, rfl, ?_⟩
  · intro e he
    obtain ⟨e, hem, rfl⟩ := List.mem_map.1 he
    obtain ⟨a, b, c⟩ := F.edge_mem e hem
    refine ⟨idx_lt ptLt (fun _ _ => ptLt_asymm) _ F.points a b c, ?_, rfl⟩
    simp only [gOf, List.length_map]
    exact List.idxOf_lt_length_of_mem b
  · simp only [(Sort.sortBy_perm _ _).length_eq, List.length_map, F.polys.length_eq, raw_length]

/-- C77: the cells are the polygons of the generator divided by the side of the square. -/
theorem c77_geometry (K : Type) [Div K] [NatCast K] (l fuel : Nat) (hl : l ≤ 61) (hf : l < fuel) {m : GMesh K}
    (h : makeLevel K fuel l = .ok m) : ∃ hm o, makeHexmesh fuel l = .ok (hm, o) ∧
      (m.surfaces.map (vertices m)).Perm
        (hm.polys.map fun P => P.map fun q => some (((q.1 : K) / (hm.coordMax : K)), ((q.2 : K) / (hm.coordMax : K)))) := by
  obtain ⟨hm, o, h0, F⟩ := facts l fuel hl hf
  obtain ⟨info, h1, h2, -⟩ := F.level K fuel o h0
  rw [h] at h1
  obtain rfl := Outcome.ok.inj h1
  refine ⟨hm, o, h0, ?_⟩
  refine ((Sort.sortBy_perm _ _).map _).trans ?_
  rw [List.map_map]
  refine List.Perm.of_eq (List.map_congr_left fun P hP => ?_)
  simp only [Function.comp, vertices, surfOf, List.map_map]
  refine List.map_congr_left fun q hq => ?_
  exact idxOf_map hm.points _ ((F.mem_points q).2 ⟨P, hP, hq⟩)

/-- C77: the edges of each cell join its consecutive points. -/
theorem c77_closed (K : Type) [Div K] [NatCast K] (l fuel : Nat) (hl : l ≤ 61) (hf : l < fuel) {m : GMesh K}
    (h : makeLevel K fuel l = .ok m) : ∀ s ∈ m.surfaces, Closed m s := by
  obtain ⟨hm, o, h0, F⟩ := facts l fuel hl hf
  obtain ⟨info, h1, h2, -⟩ := F.level K fuel o h0
  rw [h] at h1
  obtain rfl := Outcome.ok.inj h1
  intro s hs
  obtain ⟨P, hP, rfl⟩ := List.mem_map.1 ((Sort.sortBy_perm _ _).mem_iff.1 hs)
  have hlen : (ring P).length = P.length := by
    have := congrArg List.length (map_fst_ring P)
    simpa using this
  refine ⟨by simp [surfOf, hlen], ?_⟩
  intro i hi
  simp only [surfOf, List.length_map] at hi ⊢
  have hi' : i < (ring P).length := by omega
  have hmod : (i + 1) % P.length < P.length := Nat.mod_lt _ (by omega)
  have hside : (ring P)[i] = (P[i], P[(i + 1) % P.length]) := by
    have h1 : (sides P)[i]'(by rw [sides_eq]; exact hi') = (P[i], P[(i + 1) % P.length]) := by
      simp [sides, hi, hmod]
    simp only [sides_eq] at h1
    exact h1
  obtain ⟨he, -, -, -⟩ := F.side_mem hP (List.getElem_mem hi')
  refine ⟨gOf hm.points (mkEdge (ring P)[i].1 (ring P)[i].2), hm.edges.idxOf (mkEdge (ring P)[i].1 (ring P)[i].2),
    hm.points.idxOf P[i], hm.points.idxOf P[(i + 1) % P.length], ?_, idxOf_map _ _ he, ?_, ?_, ?_⟩
  · rw [List.getElem?_map, List.getElem?_eq_getElem hi']; rfl
  · rw [List.getElem?_map, List.getElem?_eq_getElem hi]; rfl
  · rw [List.getElem?_map, List.getElem?_eq_getElem hmod]; rfl
  · rw [hside]
    rcases mkEdge_cases (P[i], P[(i + 1) % P.length]) with h | h <;> rw [h]
    · left; rfl
    · right; rfl

/-- C77: a face carries a boundary mark exactly when one cell has it, otherwise two cells have it; the mark is the
number of the side of the unit square on which both its ends lie. -/
theorem c77_boundary (K : Type) [Field K] [CharZero K] (l fuel : Nat) (hl : l ≤ 61) (hf : l < fuel) {m : GMesh K}
    (h : makeLevel K fuel l = .ok m) (i : Nat) (hi : i < m.edges.length) :
    ∃ b, m.bnd[i]? = some b ∧ occurrences m i = (if b.isSome then 1 else 2) ∧
      ∃ e p q, m.edges[i]? = some e ∧ m.points[e.ids.1]? = some p ∧ m.points[e.ids.2]? = some q ∧
        ∀ k, b = some k ↔ OnSide p k ∧ OnSide q k := by
  obtain ⟨hm, o, h0, F⟩ := facts l fuel hl hf
  obtain ⟨info, h1, h2, h3⟩ := F.level K fuel o h0
  rw [h] at h1
  obtain rfl := Outcome.ok.inj h1
  simp only [List.length_map] at hi
  have he : hm.edges[i] ∈ hm.edges := List.getElem_mem hi
  have hnd : hm.edges.Nodup := F.edges.imp fun h e => by
    subst e
    have := edgeLt_asymm h
    rw [h] at this
    cases this
  have hidx : hm.edges.idxOf hm.edges[i] = i := hnd.idxOf_getElem i hi
  set e := hm.edges[i] with hedef
  obtain ⟨ha, hb, hlt⟩ := F.edge_mem e he
  have hcm : (hm.coordMax : K) ≠ 0 := by
    rw [F.cm]
    have := Nat.two_pow_pos l
    exact_mod_cast (by omega : 4 * 2 ^ l ≠ 0)
  obtain ⟨g1, g2⟩ := h3 e he
  rw [hidx] at g1 g2
  have hside : ∀ (q : Pt) (s : Side), OnSide (((q.1 : K) / (hm.coordMax : K)), ((q.2 : K) / (hm.coordMax : K))) (sideId s) ↔
      onSide hm.coordMax q s := by
    intro q s
    cases s <;> simp [sideId, OnSide, onSide, div_eq_iff hcm, hcm]
  have hocc : ((Sort.sortBy surfLt (hm.polys.map (surfOf hm.points hm.edges))).map fun s => s.edges.count i).sum =
      uses (raw l).polys e.1 e.2 := by
    rw [((Sort.sortBy_perm surfLt (hm.polys.map (surfOf hm.points hm.edges))).map _).sum_eq, ← F.count he, hidx]
  have hme : mkEdge e.1 e.2 = e := by rw [mkEdge, if_neg (by rw [ptLt_asymm hlt]; simp)]
  have hne : e.1 ≠ e.2 := by
    intro h
    rw [h] at hlt
    have := ptLt_asymm hlt
    rw [hlt] at this
    cases this
  have hpos : 1 ≤ uses (raw l).polys e.1 e.2 := by
    rw [← count_edges, hme]
    exact List.count_pos_iff.2 ((F.mem_edges e).1 he)
  have hle : uses (raw l).polys e.1 e.2 ≤ 2 := by
    rw [uses_eq _ hne]
    have := count_side l (e.1, e.2)
    have := count_side l (e.2, e.1)
    omega
  have hone := bnd_iff_once l e.1 e.2
  rw [hme] at hone
  have rest : ∀ b : Info, (∀ k, b = some k ↔ ∃ s, e ∈ hm.bnd s ∧ k = sideId s) → ∃ e' p q, (hm.edges.map (gOf hm.points))[i]? = some e' ∧
      (hm.points.map fun q => ((q.1 : K) / (hm.coordMax : K), (q.2 : K) / (hm.coordMax : K)))[e'.ids.1]? = some p ∧
      (hm.points.map fun q => ((q.1 : K) / (hm.coordMax : K), (q.2 : K) / (hm.coordMax : K)))[e'.ids.2]? = some q ∧
        ∀ k, b = some k ↔ OnSide p k ∧ OnSide q k := by
    intro b hbk
    refine ⟨gOf hm.points e, _, _, by rw [List.getElem?_map, List.getElem?_eq_getElem hi]; rfl, idxOf_map hm.points _ ha,
      idxOf_map hm.points _ hb, fun k => ?_⟩
    rw [hbk]
    constructor
    · rintro ⟨s, hs, rfl⟩
      rw [hside, hside]
      exact (F.bnd_side he s).1 hs
    · rintro ⟨k1, k2⟩
      obtain ⟨s, rfl⟩ : ∃ s, k = sideId s := by
        match k, k1 with
        | 0, _ => exact ⟨.bottom, rfl⟩
        | 1, _ => exact ⟨.right, rfl⟩
        | 2, _ => exact ⟨.top, rfl⟩
        | 3, _ => exact ⟨.left, rfl⟩
        | n + 4, h => exact h.elim
      rw [hside] at k1 k2
      exact ⟨s, (F.bnd_side he s).2 ⟨k1, k2⟩, rfl⟩
  by_cases hex : ∃ s, e ∈ hm.bnd s
  · obtain ⟨s, hs⟩ := hex
    refine ⟨some (sideId s), g2 s hs, ?_, rest _ fun k => ?_⟩
    · simp only [occurrences, hocc, Option.isSome_some, if_true]
      exact hone.1 ⟨s, F.bnd ▸ hs⟩
    · constructor
      · intro h
        exact ⟨s, hs, (Option.some.inj h).symm⟩
      · rintro ⟨s', hs', rfl⟩
        rw [F.bnd_unique hs hs']
  · refine ⟨none, g1 fun s hs => hex ⟨s, hs⟩, ?_, rest _ fun k => ?_⟩
    · simp only [occurrences, hocc, Option.isSome_none, Bool.false_eq_true, if_false]
      have : uses (raw l).polys e.1 e.2 ≠ 1 := fun h => hex (by
        obtain ⟨s, hs⟩ := hone.2 h
        exact ⟨s, F.bnd ▸ hs⟩)
      omega
    · constructor
      · intro h; cases h
      · rintro ⟨s, hs, -⟩; exact absurd ⟨s, hs⟩ hex

/-- C77: above level 61 the call does not end. -/
theorem c77_overflow (K : Type) [Div K] [NatCast K] (l fuel : Nat) (hl : 62 ≤ l) :
    makeLevel K fuel l = .ub "stack overflow" := by
  rw [makeLevel, make_ub l fuel hl]; rfl

/-- Non-vacuity: the mesh of level 0. -/
example : (match makeLevel ℚ 5 0 with
    | .ok m => (m.points.length, m.edges.length, m.surfaces.length, m.bnd.filter Option.isSome |>.length) | _ => (0, 0, 0, 0)) =
    (13, 19, 7, 8) := by decide +kernel

end Verif.Props.HexMesher
