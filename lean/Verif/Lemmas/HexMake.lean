import Verif.Lemmas.HexOwners
/-! Lemmas for C27 and C28: the outcome of the generator. -/
namespace Verif.HexMesh
open Spec.HexMesh

/-- The mesh of level `l` before sorting, and after. -/
theorem make_ok (l fuel : Nat) (hl : l ≤ 61) (hf : l < fuel) :
    ∃ hm o, makeHexmesh fuel l = .ok (hm, o) ∧ hm.coordMax = 4 * 2 ^ l ∧ hm.polys.Perm (raw l).polys ∧
      hm.bnd = (raw l).bnd ∧
      hm.points = unique (Sort.sortBy ptLt (raw l).points) ∧ hm.edges = unique (Sort.sortBy edgeLt (raw l).edges) ∧
      OwnWF o ∧ ∀ e, recorded (o e) = ownersList 0 hm.polys e := by
  obtain ⟨h1, h2⟩ := work_level l fuel hl hf
  have hp : (Sort.sortBy polyLt (raw l).polys).Perm (raw l).polys := Sort.sortBy_perm _ _
  obtain ⟨o, e1, e2, e3⟩ := ownersFrom_ok (Sort.sortBy polyLt (raw l).polys) 0 (fun _ => (none, none))
    (fun _ _ => rfl) (by
      intro e
      simp only [recorded, Option.toList_none, List.append_nil, List.length_nil, Nat.zero_add]
      have hc : (edgesOf (Sort.sortBy polyLt (raw l).polys)).count e = (edgesOf (raw l).polys).count e :=
        (hp.flatMap_right _).count_eq e
      rw [hc]
      by_cases hm : e ∈ edgesOf (raw l).polys
      · rw [edgesOf_eq] at hm
        obtain ⟨s, hs, rfl⟩ := List.mem_map.1 hm
        rw [count_edges, uses_eq _ (side_proper l hs)]
        have := count_side l (s.1, s.2)
        have := count_side l (s.2, s.1)
        omega
      · rw [List.count_eq_zero.2 hm]; omega)
  refine ⟨⟨(raw l).coordMax, unique (Sort.sortBy ptLt (raw l).points), unique (Sort.sortBy edgeLt (raw l).edges),
    Sort.sortBy polyLt (raw l).polys, (raw l).bnd⟩, o, ?_, rfl, hp, rfl, rfl, rfl, e2, ?_⟩
  · simp only [makeHexmesh, h1, h2, Outcome.bind_ok, e1]
  · intro e
    rw [e3 e]
    simp [recorded]

theorem make_ub (l fuel : Nat) (hl : 62 ≤ l) : makeHexmesh fuel l = .ub "stack overflow" := by
  simp only [makeHexmesh, ipow_two_zero (l + 2) (by omega), work_zero, Outcome.bind_ub]

theorem move_mkEdge (t : Nat × Nat) (s : Pt × Pt) : mkEdge (move t s).1 (move t s).2 = move t (mkEdge s.1 s.2) := by
  have : ptLt (move t s).2 (move t s).1 = ptLt s.2 s.1 := by
    rw [Bool.eq_iff_iff, ptLt_iff, ptLt_iff]
    simp only [move, shift]; omega
  unfold mkEdge
  rw [this]
  split <;> rfl

/-- Each boundary edge is listed once. -/
theorem raw_bnd_nodup (l : Nat) (sd : Side) : ((raw l).bnd sd).Nodup := by
  simp only [raw, addTiles, updateGeometry, List.nil_append]
  rw [List.nodup_flatMap]
  have tab : ∀ (sd : Side) (fx lx fy ly : Bool), (localBnd fy ly fx lx sd).Nodup := by
    intro sd; cases sd <;> decide
  constructor
  · intro t _
    rw [tileBnd]
    refine (tab _ _ _ _ _).map ?_
    intro a b h
    simp only [shift, Prod.mk.injEq] at h
    exact Prod.ext (Prod.ext (by omega) (by omega)) (Prod.ext (by omega) (by omega))
  · refine (tilesIn_nodup l 0 0).imp ?_
    intro a b hab
    simp only [Function.onFun]
    intro e he he'
    apply hab
    obtain ⟨f, hf, rfl⟩ := List.mem_map.1 he
    obtain ⟨g, hg, e'⟩ := List.mem_map.1 he'
    simp only [shift, Prod.mk.injEq] at e'
    have tab2 : ∀ (sd : Side) (fx lx fy ly fx' lx' fy' ly' : Bool), ∀ f ∈ localBnd fy ly fx lx sd, ∀ g ∈ localBnd fy' ly' fx' lx' sd,
        (f.1.1 % 4 = g.1.1 % 4 ∧ f.1.2 % 4 = g.1.2 % 4 ∧ f.2.1 % 4 = g.2.1 % 4 ∧ f.2.2 % 4 = g.2.2 % 4) → f = g := by
      intro sd; cases sd <;> decide +kernel
    have := tab2 _ _ _ _ _ _ _ _ _ f hf g hg (by omega)
    subst this
    exact Prod.ext (by omega) (by omega)

end Verif.HexMesh
