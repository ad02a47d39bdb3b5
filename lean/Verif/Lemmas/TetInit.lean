import Verif.Lemmas.TetConform
/-! The mesh the tetrahedral mesher starts from, and independence of the order of equal elements. -/
namespace Verif.TetRefine
open Verif.Spec.TetMesh
open TriRefine hiding Mesh midpoint breakEdges refine refineN inner

/-- If equal surfaces have equal descriptors, sorting and removing repetitions gives one result. -/
theorem unique_srt_eq {srt srt' : List (Tri × Bd) → List (Tri × Bd)} (h : IsSort srt) (h' : IsSort srt')
    (l : List (Tri × Bd)) (hl : ∀ x ∈ l, ∀ y ∈ l, x.1 = y.1 → x.2 = y.2) : unique (srt l) = unique (srt' l) := by
  obtain ⟨a1, a2, a3⟩ := unique_srt h l
  obtain ⟨b1, b2, b3⟩ := unique_srt h' l
  have hk : (unique (srt l)).map Prod.fst = (unique (srt' l)).map Prod.fst :=
    Lookup.strict_ext _ _ a1 b1 fun x => by rw [a2, b2]
  clear a1 a2 b1 b2
  revert hk a3 b3
  generalize unique (srt l) = u
  generalize unique (srt' l) = v
  intro a3 b3 hk
  induction u generalizing v with
  | nil => cases v with
    | nil => rfl
    | cons y v => simp at hk
  | cons x u ih => cases v with
    | nil => simp at hk
    | cons y v =>
      rw [List.map_cons, List.map_cons, List.cons.injEq] at hk
      rw [ih v (fun z hz => a3 z (List.mem_cons_of_mem _ hz)) (fun z hz => b3 z (List.mem_cons_of_mem _ hz)) hk.2,
        show x = y from Prod.ext hk.1 (hl x (a3 x List.mem_cons_self) y (b3 y List.mem_cons_self) hk.1)]

/-- A stable sort. -/
def stable (l : List (Tri × Bd)) : List (Tri × Bd) := Sort.sortBy (fun x y => decide (x.1 < y.1)) l

theorem stable_isSort : IsSort stable := by
  intro l
  refine ⟨Sort.sortBy_perm _ _, ?_⟩
  refine (Sort.sortBy_weak (fun x y : Tri × Bd => decide (x.1 < y.1)) ?_ ?_ l).imp ?_
  · intro a b h; simpa using le_of_lt (of_decide_eq_true h)
  · intro a b c h h'
    simp only [decide_eq_false_iff_not, not_lt] at h h' ⊢
    exact le_trans h h'
  · intro a b h; simpa using h

/-- The surfaces of the first mesh. -/
def surf0 : List (Tri × Bd) := [(⟨0, 1, 3⟩, ⟨0, true⟩), (⟨0, 1, 4⟩, ⟨1, true⟩), (⟨0, 1, 7⟩, ⟨0, false⟩),
  (⟨0, 3, 7⟩, ⟨2, true⟩), (⟨0, 4, 7⟩, ⟨2, true⟩), (⟨1, 2, 3⟩, ⟨0, true⟩), (⟨1, 2, 6⟩, ⟨5, true⟩),
  (⟨1, 2, 7⟩, ⟨0, false⟩), (⟨1, 3, 7⟩, ⟨0, false⟩), (⟨1, 4, 5⟩, ⟨1, true⟩), (⟨1, 4, 7⟩, ⟨0, false⟩),
  (⟨1, 5, 6⟩, ⟨5, true⟩), (⟨1, 5, 7⟩, ⟨0, false⟩), (⟨1, 6, 7⟩, ⟨0, false⟩), (⟨2, 3, 7⟩, ⟨4, true⟩),
  (⟨2, 6, 7⟩, ⟨4, true⟩), (⟨4, 5, 7⟩, ⟨3, true⟩), (⟨5, 6, 7⟩, ⟨3, true⟩)]

theorem unique_stable_cube : unique (stable cube.surfaces) = surf0 := by decide +kernel

theorem cube_consistent : ∀ x ∈ cube.surfaces, ∀ y ∈ cube.surfaces, x.1 = y.1 → x.2 = y.2 := by decide +kernel

section
variable (K : Type) [Field K]

/-- The first mesh. -/
def mesh0 : Mesh K :=
  { points := [(0, 0, 0), (1, 0, 0), (1, 1, 0), (0, 1, 0), (0, 0, 1), (1, 0, 1), (1, 1, 1), (0, 1, 1)]
    edges := sortEdges cube.edges
    surfaces := surf0
    vols := cube.vols }

theorem init_ok {srt : List (Tri × Bd) → List (Tri × Bd)} (h : IsSort srt) :
    init srt = .ok (mesh0 K) := by
  rw [init, unique_srt_eq h stable_isSort _ cube_consistent, unique_stable_cube]
  exact if_pos (by decide +kernel)

theorem mesh0_conforming : Conforming (mesh0 K) := by
  have hv : (mesh0 K).points.length = 8 := rfl
  refine ⟨?_, ?_, sortEdges_sorted cube.edges, ?_, ?_, ?_, ?_⟩
  · rw [hv]; exact (by decide +kernel : ∀ t ∈ cube.vols, t.a < t.b ∧ t.b < t.c ∧ t.c < t.d ∧ t.d < 8)
  · exact (by decide +kernel : cube.vols.Pairwise (· < ·))
  · intro e
    have hp : cube.edges.Perm (cube.vols.flatMap edges) := by decide +kernel
    change e ∈ sortEdges cube.edges ↔ ∃ t ∈ cube.vols, e ∈ edges t
    rw [mem_sortEdges, hp.mem_iff, List.mem_flatMap]
  · exact (by decide +kernel : (surf0.map Prod.fst).Pairwise (· < ·))
  · intro f
    change f ∈ surf0.map Prod.fst ↔ ∃ t ∈ cube.vols, f ∈ faces t
    have h1 : ∀ f ∈ surf0.map Prod.fst, f ∈ cube.vols.flatMap faces := by decide +kernel
    have h2 : ∀ f ∈ cube.vols.flatMap faces, f ∈ surf0.map Prod.fst := by decide +kernel
    rw [← List.mem_flatMap]
    exact ⟨h1 f, h2 f⟩
  · exact (by decide +kernel : ∀ x ∈ surf0, owners cube.vols x.1 = if x.2.bnd then 1 else 2)

end

section
variable {K : Type} [Field K] {m : Mesh K}

/-- The descriptors of the copies of a new face agree. -/
theorem newSurfaces_consistent (h : Conforming m) :
    ∀ x ∈ newSurfaces m, ∀ y ∈ newSurfaces m, x.1 = y.1 → x.2 = y.2 := by
  intro x hx y hy hxy
  rcases (mem_newSurfaces h x).1 hx with ⟨u, hu, hk, hb⟩ | ⟨t, ht, hi, hb⟩ <;>
  rcases (mem_newSurfaces h y).1 hy with ⟨v, hv, hk', hb'⟩ | ⟨t', ht', hi', hb'⟩
  · have hfu := face_ok h (List.mem_map_of_mem hu)
    have hfv := face_ok h (List.mem_map_of_mem hv)
    have huv : u.1 = v.1 := kid_parent h.edge_sorted hfu hfv hk (hxy ▸ hk')
    rw [hb, hb', ← (descriptor_ok h.face_sorted hu).2, ← (descriptor_ok h.face_sorted hv).2, huv]
  · exact absurd (hxy ▸ hk) (inside_not_kid h.edge_sorted (tetOk_of h ht') (face_ok h (List.mem_map_of_mem hu)) hi')
  · exact absurd hk' (inside_not_kid h.edge_sorted (tetOk_of h ht) (face_ok h (List.mem_map_of_mem hv)) (hxy ▸ hi))
  · rw [hb, hb']

theorem fine_srt {srt srt' : List (Tri × Bd) → List (Tri × Bd)} (hs : IsSort srt) (hs' : IsSort srt')
    (h : Conforming m) : fine srt m = fine srt' m := by
  unfold fine
  rw [unique_srt_eq hs hs' _ (newSurfaces_consistent h)]

end
end Verif.TetRefine
