import Verif.Lemmas.VemDofs
/-! C142: the numbering of the unknowns on the faces in the virtual element method. -/
namespace Verif.Props.VemDofs
open Verif.VemDofs Verif.MeshTopo Verif.Spec Verif.Spec.VemDofs

/-- A quadrangle cut into two triangles: the lower one is visited counter-clockwise, the upper one clockwise. -/
def exMesh : Mesh :=
  { npts := 4
    faces := [[0, 1], [0, 2], [0, 3], [1, 3], [2, 3]]
    cells := [.tri 0 1 3, .tri 0 2 3]
    binfo := [.mk2 0 true, .mk2 1 true, .default, .mk2 2 true, .mk2 3 true] }

theorem exMesh_ok : MeshOk exMesh where
  sorted := by decide
  ends := by
    intro f hf
    simp only [exMesh, List.mem_cons, List.not_mem_nil, or_false] at hf
    rcases hf with rfl | rfl | rfl | rfl | rfl <;> exact ⟨_, _, rfl, by decide, by decide, by decide⟩
  once := by
    intro a b h
    simp only [exMesh, List.mem_cons, List.cons.injEq, and_true, List.not_mem_nil, or_false] at h ⊢
    omega
  binfo := rfl
  cells := by
    intro c hc
    simp only [exMesh, List.mem_cons, List.not_mem_nil, or_false] at hc
    rcases hc with rfl | rfl <;> exact ⟨by decide, by decide, by decide +kernel, by decide⟩

/-- C142: the mapper of a mesh. The unknowns of a face run from its first to its second point; those of a cell follow
the walk along its boundary, `k` on every side, and are all different. -/
theorem c142_numbering (m : Mesh) (hm : MeshOk m) (k : Nat) (hk : 1 ≤ k) :
    ∃ M, construct m k = .ok M ∧
      (∀ i a b, m.faces[i]? = some [a, b] → faceToGlobal M i = .ok (dofsOn m.npts k m.faces a b)) ∧
      (∀ i c, m.cells[i]? = some c → ∃ l, cellToGlobal M i = .ok l ∧
        l.length = (walk c).length * k ∧ l.Nodup ∧
        ∀ j < (walk c).length, ∀ q < k,
          l[j * k + q]? = some (dofAt m.npts k m.faces ((walk c).getD j 0) ((walk c).getD ((j + 1) % (walk c).length) 0) q)) := by
  refine ⟨_, construct_ok hm hk, ?_, ?_⟩
  · intro i a b h
    rw [faceToGlobal, dofsOn_get hm hk h]
  · intro i c hi
    have hc : CellOk m.faces c := hm.cells c (List.mem_of_getElem? hi)
    refine ⟨cellDofs m k c, ?_, ?_, ?_, ?_⟩
    · rw [cellToGlobal, List.getElem?_map, hi]; rfl
    · exact cellDofs_length m k c
    · exact cellDofs_nodup hm hc hk
    · intro j hj q hq
      exact cellDofs_get m k c j q hj hq

example : ((construct exMesh 3).bind fun M => faceToGlobal M 2) = .ok [0, 8, 9, 3] ∧
    ((construct exMesh 3).bind fun M => cellToGlobal M 1) = .ok [0, 6, 7, 2, 12, 13, 3, 9, 8] := by decide +kernel

/-- C142: two cells with a common face use the same unknowns on it, in the same or in the opposite direction. -/
theorem c142_shared (m : Mesh) (hm : MeshOk m) (k v w q : Nat) (h : faceOf m.faces v w ∈ m.faces) (hq : q ≤ k)
    (hk : 1 ≤ k) : dofAt m.npts k m.faces v w q = dofAt m.npts k m.faces w v (k - q) :=
  dofAt_rev hm k v w q h hq hk

/-- C142: the numbers of the unknowns are those from zero to `npts + nfaces (k - 1)`, without gaps or repetitions: a
number below `npts` is a point, any other one belongs to exactly one place inside exactly one face. -/
theorem c142_count (m : Mesh) (hm : MeshOk m) (k : Nat) (n : Nat) :
    (m.npts ≤ n ∧ n < m.npts + m.faces.length * (k - 1) ↔
      ∃ a b q, [a, b] ∈ m.faces ∧ 0 < q ∧ q < k ∧ dofAt m.npts k m.faces a b q = n) ∧
    ∀ a b q a' b' q', [a, b] ∈ m.faces → [a', b'] ∈ m.faces → 0 < q → q < k → 0 < q' → q' < k →
      dofAt m.npts k m.faces a b q = dofAt m.npts k m.faces a' b' q' → a = a' ∧ b = b' ∧ q = q' := by
  constructor
  · constructor
    · rintro ⟨h1, h2⟩
      have hk : 0 < k - 1 := by
        by_contra h0
        have : k - 1 = 0 := by omega
        rw [this] at h2; omega
      have hd : (n - m.npts) / (k - 1) < m.faces.length := by
        rw [Nat.div_lt_iff_lt_mul hk]; omega
      obtain ⟨a, b, hf, -⟩ := hm.ends _ (List.getElem_mem hd)
      have hmem : [a, b] ∈ m.faces := hf ▸ List.getElem_mem hd
      have hr := Nat.mod_lt (n - m.npts) hk
      refine ⟨a, b, (n - m.npts) % (k - 1) + 1, hmem, by omega, by omega, ?_⟩
      have hi : m.faces.idxOf [a, b] = (n - m.npts) / (k - 1) :=
        idx_get hm (by rw [List.getElem?_eq_getElem hd, hf])
      rw [dofAt_inner hmem (by omega) (by omega), hi]
      have := Nat.div_add_mod (n - m.npts) (k - 1)
      rw [Nat.mul_comm] at this
      omega
    · rintro ⟨a, b, q, hmem, h0, h1, rfl⟩
      have hi := List.idxOf_lt_length_of_mem hmem
      rw [dofAt_inner hmem h0 h1]
      refine ⟨by omega, ?_⟩
      have : (m.faces.idxOf [a, b] + 1) * (k - 1) ≤ m.faces.length * (k - 1) := Nat.mul_le_mul_right _ hi
      rw [Nat.add_mul, Nat.one_mul] at this
      omega
  · intro a b q a' b' q' hmem hmem' h0 h1 h0' h1' he
    obtain ⟨hi, hq⟩ := inner_inj (m := m) hmem hmem' h0 h1 h0' h1' he
    have := congrArg (fun i => m.faces[i]?) hi
    simp only [get_idx hmem, get_idx hmem', Option.some.injEq, List.cons.injEq, and_true] at this
    exact ⟨this.1, this.2, hq⟩

example : dofAt 4 3 exMesh.faces 0 3 1 = 8 ∧ dofAt 4 3 exMesh.faces 3 0 2 = 8 := by decide +kernel

/-- C142: `bnd_to_global` of a face is empty unless the face is marked as boundary, is not an interface between
subdomains, and belongs to a cell; then it lists all the unknowns of the face in the direction of the walk around such
a cell. -/
theorem c142_boundary (m : Mesh) (hm : MeshOk m) (k : Nat) (hk : 1 ≤ k) (i : Nat) (f : List Nat)
    (hi : m.faces[i]? = some f) (d : BDesc) (hd : m.binfo[i]? = some d) :
    ∃ M, construct m k = .ok M ∧
      ((d.isB = true ∧ d.isInt = false ∧ ∃ c ∈ m.cells, ∃ s ∈ walkSides (walk c), faceOf m.faces s.1 s.2 = f) →
        ∃ c ∈ m.cells, ∃ s ∈ walkSides (walk c), faceOf m.faces s.1 s.2 = f ∧
          bndToGlobal M i = dofsOn m.npts k m.faces s.1 s.2) ∧
      (¬ (d.isB = true ∧ d.isInt = false ∧ ∃ c ∈ m.cells, ∃ s ∈ walkSides (walk c), faceOf m.faces s.1 s.2 = f) →
        bndToGlobal M i = []) := by
  refine ⟨_, construct_ok hm hk, ?_⟩
  have hdesc : ∀ s : Nat × Nat, faceOf m.faces s.1 s.2 = f → desc m s.1 s.2 = d := by
    intro s hs
    rw [desc, hs, idx_get hm hi, List.getD_eq_getElem?_getD, hd]; rfl
  have hwr : ∀ l, (i, l) ∈ ((m.cells.flatMap fun c => walkSides (walk c)).flatMap (bndOf m k)).reverse ↔
      (d.isB = true ∧ d.isInt = false) ∧ ∃ c ∈ m.cells, ∃ s ∈ walkSides (walk c), faceOf m.faces s.1 s.2 = f ∧
        l = dofsOn m.npts k m.faces s.1 s.2 := by
    intro l
    simp only [List.mem_reverse, List.mem_flatMap]
    constructor
    · rintro ⟨s, ⟨c, hc, hs⟩, hb⟩
      unfold bndOf at hb
      split at hb
      · rename_i hcond
        simp only [List.mem_singleton, Prod.mk.injEq] at hb
        have hj := (hm.cells c hc).joined s hs
        have hf : faceOf m.faces s.1 s.2 = f := by
          have := get_idx hj
          rw [← hb.1, hi] at this
          exact (Option.some.injEq _ _ ▸ this).symm
        rw [hdesc s hf] at hcond
        simp only [Bool.and_eq_true, Bool.not_eq_true'] at hcond
        exact ⟨hcond, c, hc, s, hs, hf, hb.2⟩
      · simp at hb
    · rintro ⟨hcond, c, hc, s, hs, hf, rfl⟩
      refine ⟨s, ⟨c, hc, hs⟩, ?_⟩
      unfold bndOf
      rw [hdesc s hf, hf, idx_get hm hi]
      simp [hcond.1, hcond.2]
  refine ⟨?_, ?_⟩
  · rintro ⟨h1, h2, c, hc, s, hs, hf⟩
    obtain ⟨l, hl⟩ := lookup_some _ i ⟨_, (hwr _).2 ⟨⟨h1, h2⟩, c, hc, s, hs, hf, rfl⟩⟩
    obtain ⟨-, c', hc', s', hs', hf', rfl⟩ := (hwr l).1 (lookup_mem _ i l hl)
    exact ⟨c', hc', s', hs', hf', by rw [bndToGlobal, hl]; rfl⟩
  · intro hn
    rw [bndToGlobal]
    cases hl : List.lookup i _ with
    | none => rfl
    | some l =>
      obtain ⟨⟨h1, h2⟩, c, hc, s, hs, hf, -⟩ := (hwr l).1 (lookup_mem _ i l hl)
      exact absurd ⟨h1, h2, c, hc, s, hs, hf⟩ hn

example : ((construct exMesh 3).bind fun M => .ok (bndToGlobal M 1, bndToGlobal M 2)) = .ok ([0, 6, 7, 2], []) := by
  decide +kernel

/-- C142: degree zero is refused. -/
theorem c142_degree (m : Mesh) (M : Mapper) : (construct m 0).Throws ∧ (recompute m 0 M).Throws := ⟨trivial, trivial⟩

/-- C142 (violated): the documentation says that the faces appear counter-clockwise. The corners of a triangle are
visited in the order of their numbers, which is clockwise for one of the two triangles here. -/
theorem c142_ccw_violated : ∃ (m : Mesh) (x y : Nat → Int), MeshOk m ∧
    (∃ c ∈ m.cells, area2 x y (walk c) > 0) ∧ ∃ c ∈ m.cells, area2 x y (walk c) < 0 :=
  ⟨exMesh, fun i => [0, 1, 0, 1].getD i 0, fun i => [0, 0, 1, 1].getD i 0, exMesh_ok, by decide +kernel⟩

/-- C142 (violated): `recompute` with another degree leaves all answers as they were, so that the lists have the
lengths of the first degree. -/
theorem c142_recompute_violated (m : Mesh) (hm : MeshOk m) (k k' : Nat) (hk : 1 ≤ k) (hk' : 1 ≤ k') :
    ∃ M M', construct m k = .ok M ∧ recompute m k' M = .ok M' ∧
      (∀ i < m.faces.length, faceToGlobal M' i = faceToGlobal M i) ∧
      ∀ i < m.cells.length, cellToGlobal M' i = cellToGlobal M i := by
  refine ⟨_, _, construct_ok hm hk, recompute_ok hm hk k' hk' _ _, ?_, ?_⟩
  · intro i hi
    simp only [faceToGlobal]
    rw [List.getElem?_append_left (by rw [faceLoop_length]; exact hi)]
  · intro i hi
    simp only [cellToGlobal]
    rw [List.getElem?_append_left (by simpa using hi)]

example : ((construct exMesh 1).bind fun M => (recompute exMesh 3 M).bind fun M' => faceToGlobal M' 2) = .ok [0, 3] := by
  decide +kernel

end Verif.Props.VemDofs
