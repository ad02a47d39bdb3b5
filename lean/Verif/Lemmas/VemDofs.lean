import Mathlib.Tactic.Ring
import Verif.Lemmas.MeshFile
import Verif.Spec.VemDofs
/-! Helper lemmas for the numbering of the virtual element unknowns. -/
namespace Verif.VemDofs
open Verif.Lookup Verif.MeshTopo Verif.Spec Verif.Spec.VemDofs

theorem faceLoop_get (k : Nat) (fs : List (List Nat)) (base i : Nat) :
    (faceLoop k base fs)[i]? = (fs[i]?).map fun f =>
      f.getD 0 0 :: (List.range (k - 1)).map (base + i * (k - 1) + ·) ++ [f.getD 1 0] := by
  induction fs generalizing base i with
  | nil => simp [faceLoop]
  | cons f fs ih =>
    cases i with
    | zero => simp [faceLoop]
    | succ i =>
      simp only [faceLoop, List.getElem?_cons_succ, ih]
      have : base + (k - 1) + i * (k - 1) = base + (i + 1) * (k - 1) := by ring
      simp only [this]

theorem faceLoop_length (k : Nat) (fs : List (List Nat)) (base : Nat) : (faceLoop k base fs).length = fs.length := by
  induction fs generalizing base with
  | nil => rfl
  | cons f fs ih => simp [faceLoop, ih]

variable {m : Mesh}

theorem idx_get (hm : MeshOk m) {i : Nat} {f : List Nat} (h : m.faces[i]? = some f) : m.faces.idxOf f = i := by
  obtain ⟨hi, rfl⟩ := List.getElem?_eq_some_iff.1 h
  have hn : m.faces.Nodup := hm.sorted.imp ne_of_lt
  exact hn.idxOf_getElem i hi

theorem get_idx {f : List Nat} (h : f ∈ m.faces) : m.faces[m.faces.idxOf f]? = some f := by
  have := List.idxOf_lt_length_of_mem h
  rw [List.getElem?_eq_getElem this, List.getElem_idxOf]

theorem faceOf_fwd {faces : List (List Nat)} {v w : Nat} (h : [v, w] ∈ faces) : faceOf faces v w = [v, w] := if_pos h

theorem faceOf_bwd (hm : MeshOk m) {v w : Nat} (h : [w, v] ∈ m.faces) : faceOf m.faces v w = [w, v] :=
  if_neg (hm.once _ _ h)

theorem faceOf_comm (hm : MeshOk m) {v w : Nat} (h : faceOf m.faces v w ∈ m.faces) :
    faceOf m.faces w v = faceOf m.faces v w := by
  by_cases hv : [v, w] ∈ m.faces
  · rw [faceOf_fwd hv, faceOf_bwd hm hv]
  · have : [w, v] ∈ m.faces := by rwa [faceOf, if_neg hv] at h
    rw [faceOf_bwd hm this, faceOf_fwd this]

/-- Reversing the direction. -/
theorem dofAt_rev (hm : MeshOk m) (k v w q : Nat) (h : faceOf m.faces v w ∈ m.faces) (hq : q ≤ k) (hk : 1 ≤ k) :
    dofAt m.npts k m.faces v w q = dofAt m.npts k m.faces w v (k - q) := by
  unfold dofAt
  rw [faceOf_comm hm h]
  by_cases h0 : q = 0
  · have a1 : ¬ k - q = 0 := by omega
    have a2 : k - q = k := by omega
    simp only [if_pos h0, if_neg a1, if_pos a2]
  · by_cases h1 : q = k
    · have a1 : k - q = 0 := by omega
      simp only [if_neg h0, if_pos h1, if_pos a1]
    · have a1 : ¬ k - q = 0 := by omega
      have a2 : ¬ k - q = k := by omega
      simp only [if_neg h0, if_neg h1, if_neg a1, if_neg a2]
      congr 1
      by_cases hv : [v, w] ∈ m.faces
      · simp only [if_pos hv, if_neg (hm.once _ _ hv)]; omega
      · have hw : [w, v] ∈ m.faces := by rwa [faceOf, if_neg hv] at h
        simp only [if_neg hv, if_pos hw]; omega

theorem dofsOn_rev (hm : MeshOk m) (k v w : Nat) (h : faceOf m.faces v w ∈ m.faces) (hk : 1 ≤ k) :
    dofsOn m.npts k m.faces w v = (dofsOn m.npts k m.faces v w).reverse := by
  apply List.ext_getElem
  · simp [dofsOn]
  · intro i h1 h2
    simp only [dofsOn, List.length_map, List.length_range] at h1
    simp only [dofsOn, List.getElem_map, List.getElem_range, List.getElem_reverse, List.length_map, List.length_range]
    rw [dofAt_rev hm k v w _ h (by omega) hk]
    congr 1
    omega

theorem dofsOn_get (hm : MeshOk m) {k i a b : Nat} (hk : 1 ≤ k) (h : m.faces[i]? = some [a, b]) :
    (faceLoop k m.npts m.faces)[i]? = some (dofsOn m.npts k m.faces a b) := by
  have hmem : [a, b] ∈ m.faces := List.mem_of_getElem? h
  rw [faceLoop_get, h, Option.map_some]
  congr 1
  apply List.ext_getElem
  · simp [dofsOn]; omega
  · intro q h1 h2
    simp only [dofsOn, List.length_map, List.length_range] at h2
    simp only [dofsOn, List.getElem_map, List.getElem_range, dofAt, faceOf_fwd hmem, idx_get hm h, if_pos hmem]
    rw [List.getElem_append]
    split
    · rename_i hl
      simp only [List.length_cons, List.length_map, List.length_range] at hl
      cases q with
      | zero => simp
      | succ q =>
        simp only [List.getElem_cons_succ, List.getElem_map, List.getElem_range]
        rw [if_neg (by omega), if_neg (by omega), Nat.add_sub_cancel]
    · rename_i hl
      simp only [List.length_cons, List.length_map, List.length_range] at hl
      have : q = k := by omega
      subst this
      rw [if_neg (by omega), if_pos rfl]
      simp

theorem dofsOn_dropLast (npts k : Nat) (faces : List (List Nat)) (v w : Nat) :
    (dofsOn npts k faces v w).dropLast = (List.range k).map (dofAt npts k faces v w) := by
  rw [dofsOn, List.range_succ, List.map_append, List.map_singleton, List.dropLast_concat]

theorem offset_of_get (v : List (List Nat)) (hs : v.Pairwise (· < ·)) (x : List Nat) (i : Nat) (h : v[i]? = some x) :
    offset v x = .ok i := by
  obtain ⟨hi, rfl⟩ := List.getElem?_eq_some_iff.1 h
  have := (c04_offset_stored_partial v ((strictSorted_iff_pairwise v).2 hs) i hi).1
  rw [← MeshFile.inst_eq] at this
  exact this

/-- The descriptor of the face between two points. -/
def desc (m : Mesh) (v w : Nat) : BDesc := m.binfo.getD (m.faces.idxOf (faceOf m.faces v w)) .default

/-- What a side writes into `bnd_face_dofs`. -/
def bndOf (m : Mesh) (k : Nat) (s : Nat × Nat) : List (Nat × List Nat) :=
  if (desc m s.1 s.2).isB && !(desc m s.1 s.2).isInt then
    [(m.faces.idxOf (faceOf m.faces s.1 s.2), dofsOn m.npts k m.faces s.1 s.2)] else []

/-- A face with a flag describes a side. -/
def Matches (m : Mesh) (x : List Nat × Bool) (s : Nat × Nat) : Prop :=
  x.1 ∈ m.faces ∧ x.1 = if x.2 then [s.2, s.1] else [s.1, s.2]

theorem cellLoop_ok (hm : MeshOk m) {k : Nat} (hk : 1 ≤ k) (B : List (List Nat))
    (hB : ∀ i < m.faces.length, B[i]? = (faceLoop k m.npts m.faces)[i]?) (fs : List (List Nat × Bool))
    (ss : List (Nat × Nat)) (h : List.Forall₂ (Matches m) fs ss) (l : List Nat) (bnd : List (Nat × List Nat)) :
    cellLoop m B fs l bnd = .ok (l ++ ss.flatMap (fun s => (List.range k).map (dofAt m.npts k m.faces s.1 s.2)),
      (ss.flatMap (bndOf m k)).reverse ++ bnd) := by
  induction h generalizing l bnd with
  | nil => simp [cellLoop]
  | @cons x s fs ss hx _ ih =>
    obtain ⟨f, flip⟩ := x
    obtain ⟨v, w⟩ := s
    obtain ⟨hmem, hf⟩ := hx
    dsimp only at hmem hf
    have hg := get_idx (m := m) hmem
    set i := m.faces.idxOf f with hi
    have hlt : i < m.faces.length := List.idxOf_lt_length_of_mem hmem
    have hfo : faceOf m.faces v w = f := by
      cases flip
      · simp only [Bool.false_eq_true, if_false] at hf
        rw [hf] at hmem ⊢; exact faceOf_fwd hmem
      · simp only [if_true] at hf
        rw [hf] at hmem ⊢; exact faceOf_bwd hm hmem
    have hdir : ∃ L, B[i]? = some L ∧ (if flip then L.reverse else L) = dofsOn m.npts k m.faces v w := by
      cases flip
      · simp only [Bool.false_eq_true, if_false] at hf
        refine ⟨_, by rw [hB i hlt]; exact dofsOn_get hm hk (hf ▸ hg), rfl⟩
      · simp only [if_true] at hf
        refine ⟨_, by rw [hB i hlt]; exact dofsOn_get hm hk (hf ▸ hg), ?_⟩
        rw [if_pos rfl]
        exact (dofsOn_rev hm k w v (by rw [faceOf_fwd (hf ▸ hmem)]; exact hf ▸ hmem) hk).symm
    obtain ⟨L, hL, hdir⟩ := hdir
    have hb : m.binfo[i]? = some (desc m v w) := by
      have : i < m.binfo.length := hm.binfo ▸ hlt
      rw [desc, hfo, ← hi, List.getD_eq_getElem?_getD, List.getElem?_eq_getElem this]; rfl
    rw [cellLoop, offset_of_get _ hm.sorted _ _ hg, Outcome.bind_ok]
    simp only [hL, hdir]
    have hbi : boundaryInfo m f = .ok (desc m v w) := by
      rw [boundaryInfo, if_neg (by rw [hm.binfo]; simp), MeshFile.lookup_of_get _ hm.sorted _ _ hg, Outcome.bind_ok]
      show (Outcome.ok i).bind _ = _
      rw [Outcome.bind_ok, hb]
    rw [hbi, Outcome.bind_ok, ih, dofsOn_dropLast]
    congr 2
    · simp
    · simp only [List.flatMap_cons, List.reverse_append, bndOf, hfo]
      split <;> simp [hi]

theorem matching_ok (n0 n1 : Nat) (fl : Bool) (fcs : List (List Nat)) (hn : fcs.Nodup)
    (hs : ∀ f ∈ fcs, ∃ a b, f = [a, b] ∧ a < b) :
    matching n0 n1 fl fcs = .ok (if [n0, n1] ∈ fcs then [([n0, n1], fl)] else []) := by
  induction fcs with
  | nil => simp [matching]
  | cons f fs ih =>
    obtain ⟨a, b, rfl, hab⟩ := hs f (by simp)
    have hn' := List.nodup_cons.1 hn
    rw [matching]
    simp only [if_pos hab]
    rw [ih hn'.2 fun g hg => hs g (List.mem_cons_of_mem _ hg), Outcome.bind_ok]
    by_cases h : a = n0 ∧ b = n1
    · obtain ⟨rfl, rfl⟩ := h
      rw [if_pos ⟨rfl, rfl⟩, if_neg hn'.1, if_pos (by simp)]
    · rw [if_neg h]
      have : ([n0, n1] ∈ [a, b] :: fs) ↔ [n0, n1] ∈ fs := by
        rw [List.mem_cons]
        constructor
        · rintro (h' | h')
          · simp only [List.cons.injEq, and_true] at h'
            exact absurd ⟨h'.1.symm, h'.2.symm⟩ h
          · exact h'
        · exact Or.inr
      simp only [this]

theorem polyLoop_ok (pts : List Nat) (fcs faces : List (List Nat)) (hn : fcs.Nodup)
    (hs : ∀ f ∈ fcs, f ∈ faces ∧ ∃ a b, f = [a, b] ∧ a < b)
    (hj : ∀ s ∈ walkSides pts, faceOf faces s.1 s.2 ∈ fcs) (is : List Nat) (hi : ∀ i ∈ is, i < pts.length) :
    ∃ r, polyLoop pts fcs is = .ok r ∧ List.Forall₂ (fun (x : List Nat × Bool) (s : Nat × Nat) =>
      x.1 ∈ faces ∧ x.1 = if x.2 then [s.2, s.1] else [s.1, s.2]) r
      (is.map fun i => (pts.getD i 0, pts.getD ((i + 1) % pts.length) 0)) := by
  induction is with
  | nil => exact ⟨[], rfl, .nil⟩
  | cons i is ih =>
    obtain ⟨r, hr, hf⟩ := ih fun j hj => hi j (List.mem_cons_of_mem _ hj)
    have hs' : ∀ f ∈ fcs, ∃ a b, f = [a, b] ∧ a < b := fun f hf => (hs f hf).2
    have hside : (pts.getD i 0, pts.getD ((i + 1) % pts.length) 0) ∈ walkSides pts :=
      List.mem_map.2 ⟨i, List.mem_range.2 (hi i (by simp)), rfl⟩
    have hmem := hj _ hside
    rw [polyLoop]
    dsimp only at hmem ⊢
    rw [List.map_cons]
    generalize pts.getD i 0 = v at *
    generalize pts.getD ((i + 1) % pts.length) 0 = w at *
    have hlt : ([v, w] ∈ fcs → v < w) ∧ ([w, v] ∈ fcs → w < v) := by
      constructor <;> intro h <;> obtain ⟨a, b, he, hab⟩ := hs' _ h <;>
        · simp only [List.cons.injEq, and_true] at he; omega
    have hin : [v, w] ∈ fcs ∨ [w, v] ∈ fcs := by
      unfold faceOf at hmem; split at hmem
      · exact .inl hmem
      · exact .inr hmem
    by_cases hgt : v > w
    · have h1 : [w, v] ∈ fcs := hin.resolve_left fun h => by have := hlt.1 h; omega
      rw [if_pos hgt, matching_ok _ _ _ _ hn hs', if_pos h1, Outcome.bind_ok, hr, Outcome.bind_ok]
      exact ⟨_, rfl, .cons ⟨(hs _ h1).1, by simp⟩ hf⟩
    · have h1 : [v, w] ∈ fcs := hin.resolve_right fun h => by have := hlt.2 h; omega
      rw [if_neg hgt, matching_ok _ _ _ _ hn hs', if_pos h1, Outcome.bind_ok, hr, Outcome.bind_ok]
      exact ⟨_, rfl, .cons ⟨(hs _ h1).1, by simp⟩ hf⟩

theorem sides3 (a b c : Nat) : walkSides [a, b, c] = [(a, b), (b, c), (c, a)] := by
  simp [walkSides, List.range_succ]

theorem sides4 (a b c d : Nat) : walkSides [a, b, c, d] = [(a, b), (b, c), (c, d), (d, a)] := by
  simp [walkSides, List.range_succ]

theorem facesCcw_ok (c : Cell) (hc : CellOk m.faces c) :
    ∃ fs, facesCcw c = .ok fs ∧ List.Forall₂ (Matches m) fs (walkSides (walk c)) := by
  cases c with
  | tri p0 p1 p2 =>
    obtain ⟨h1, h2, a1, a2, a3⟩ := hc.stored
    refine ⟨_, by rw [facesCcw, if_pos ⟨h1, h2⟩], ?_⟩
    rw [walk, sides3]
    exact .cons ⟨a1, rfl⟩ (.cons ⟨a2, rfl⟩ (.cons ⟨a3, rfl⟩ .nil))
  | quad p0 p1 p2 p3 =>
    obtain ⟨a1, a2, a3, a4⟩ := hc.stored
    refine ⟨_, rfl, ?_⟩
    rw [walk, sides4]
    exact .cons ⟨a1, rfl⟩ (.cons ⟨a2, rfl⟩ (.cons ⟨a3, rfl⟩ (.cons ⟨a4, rfl⟩ .nil)))
  | poly pts fcs =>
    obtain ⟨hn, hl, hs, hj⟩ := hc.stored
    obtain ⟨r, hr, hf⟩ := polyLoop_ok pts fcs m.faces hn hs hj (List.range pts.length) fun i hi => List.mem_range.1 hi
    refine ⟨r, ?_, hf⟩
    have : fcs.length = r.length := by
      have := hf.length_eq
      simp only [List.length_map, List.length_range] at this
      omega
    rw [facesCcw, hr, Outcome.bind_ok, if_pos this]

/-- The unknowns on the boundary of a cell. -/
def cellDofs (m : Mesh) (k : Nat) (c : Cell) : List Nat :=
  (walkSides (walk c)).flatMap fun s => (List.range k).map (dofAt m.npts k m.faces s.1 s.2)

theorem cellsLoop_ok (hm : MeshOk m) {k : Nat} (hk : 1 ≤ k) (cs : List Cell) (hc : ∀ c ∈ cs, CellOk m.faces c)
    (M : Mapper) (hB : ∀ i < m.faces.length, M.byFace[i]? = (faceLoop k m.npts m.faces)[i]?) :
    cellsLoop m cs M = .ok ⟨M.byFace, M.byCell ++ cs.map (cellDofs m k),
      ((cs.flatMap fun c => walkSides (walk c)).flatMap (bndOf m k)).reverse ++ M.bnd⟩ := by
  induction cs generalizing M with
  | nil => simp [cellsLoop]
  | cons c cs ih =>
    obtain ⟨fs, hfs, hf⟩ := facesCcw_ok c (hc c (by simp))
    rw [cellsLoop, hfs, Outcome.bind_ok, cellLoop_ok hm hk _ hB _ _ hf, Outcome.bind_ok]
    refine (ih (fun c' h => hc c' (List.mem_cons_of_mem _ h)) _ ?_).trans ?_
    · exact hB
    congr 1
    simp [cellDofs, List.flatMap_append, List.append_assoc]

theorem construct_ok (hm : MeshOk m) {k : Nat} (hk : 1 ≤ k) :
    construct m k = .ok ⟨faceLoop k m.npts m.faces, m.cells.map (cellDofs m k),
      ((m.cells.flatMap fun c => walkSides (walk c)).flatMap (bndOf m k)).reverse⟩ := by
  rw [construct, recompute, if_neg (by omega)]
  refine (cellsLoop_ok hm hk m.cells hm.cells _ fun i _ => ?_).trans ?_
  · simp [Mapper.empty]
  · simp [Mapper.empty]

theorem recompute_ok (hm : MeshOk m) {k : Nat} (hk : 1 ≤ k) (k' : Nat) (hk' : 1 ≤ k') (bc : List (List Nat))
    (bnd : List (Nat × List Nat)) :
    recompute m k' ⟨faceLoop k m.npts m.faces, bc, bnd⟩ =
      .ok ⟨faceLoop k m.npts m.faces ++ faceLoop k' m.npts m.faces, bc ++ m.cells.map (cellDofs m k),
        ((m.cells.flatMap fun c => walkSides (walk c)).flatMap (bndOf m k)).reverse ++ bnd⟩ := by
  rw [recompute, if_neg (by omega)]
  refine cellsLoop_ok hm hk m.cells hm.cells _ fun i hi => ?_
  dsimp only
  rw [List.getElem?_append_left (by rw [faceLoop_length]; exact hi)]

theorem side_ne (l : List Nat) (hn : l.Nodup) (h2 : 2 ≤ l.length) {i : Nat} (hi : i < l.length) :
    l.getD i 0 ≠ l.getD ((i + 1) % l.length) 0 := by
  have h : (i + 1) % l.length < l.length := Nat.mod_lt _ (by omega)
  rw [List.getD_eq_getElem?_getD, List.getD_eq_getElem?_getD, List.getElem?_eq_getElem hi, List.getElem?_eq_getElem h]
  simp only [Option.getD_some, ne_eq]
  rw [hn.getElem_inj_iff]
  by_cases hw : i + 1 = l.length
  · rw [hw, Nat.mod_self]; omega
  · rw [Nat.mod_eq_of_lt (by omega)]; omega

theorem getD_inj (l : List Nat) (hn : l.Nodup) {i j : Nat} (hi : i < l.length) (hj : j < l.length)
    (h : l.getD i 0 = l.getD j 0) : i = j := by
  rw [List.getD_eq_getElem?_getD, List.getD_eq_getElem?_getD, List.getElem?_eq_getElem hi,
    List.getElem?_eq_getElem hj] at h
  exact (hn.getElem_inj_iff).1 h

/-- The sides of a cell lie on different faces. -/
theorem sides_distinct (faces : List (List Nat)) (l : List Nat) (hn : l.Nodup) (h3 : 3 ≤ l.length) {i j : Nat}
    (hi : i < l.length) (hj : j < l.length)
    (h : faceOf faces (l.getD i 0) (l.getD ((i + 1) % l.length) 0) =
      faceOf faces (l.getD j 0) (l.getD ((j + 1) % l.length) 0)) : i = j := by
  have hi' : (i + 1) % l.length < l.length := Nat.mod_lt _ (by omega)
  have hj' : (j + 1) % l.length < l.length := Nat.mod_lt _ (by omega)
  have key : l.getD i 0 = l.getD j 0 ∨
      (l.getD i 0 = l.getD ((j + 1) % l.length) 0 ∧ l.getD ((i + 1) % l.length) 0 = l.getD j 0) := by
    unfold faceOf at h
    split at h <;> split at h <;> simp only [List.cons.injEq, and_true] at h
    · exact .inl h.1
    · exact .inr ⟨h.1, h.2⟩
    · exact .inr ⟨h.2, h.1⟩
    · exact .inl h.2
  rcases key with h | ⟨h1, h2⟩
  · exact getD_inj l hn hi hj h
  · have e1 := getD_inj l hn hi hj' h1
    have e2 := getD_inj l hn hi' hj h2
    exfalso
    have s1 : (j + 1) % l.length = j + 1 ∨ (j + 1 = l.length ∧ (j + 1) % l.length = 0) := by
      by_cases hw : j + 1 = l.length
      · exact .inr ⟨hw, by rw [hw, Nat.mod_self]⟩
      · exact .inl (Nat.mod_eq_of_lt (by omega))
    have s2 : (i + 1) % l.length = i + 1 ∨ (i + 1 = l.length ∧ (i + 1) % l.length = 0) := by
      by_cases hw : i + 1 = l.length
      · exact .inr ⟨hw, by rw [hw, Nat.mod_self]⟩
      · exact .inl (Nat.mod_eq_of_lt (by omega))
    omega

theorem dofAt_inner {a b k q : Nat} (h : [a, b] ∈ m.faces) (h0 : 0 < q) (h1 : q < k) :
    dofAt m.npts k m.faces a b q = m.npts + m.faces.idxOf [a, b] * (k - 1) + (q - 1) := by
  have a0 : ¬ q = 0 := by omega
  have a1 : ¬ q = k := by omega
  simp only [dofAt, if_neg a0, if_neg a1, faceOf_fwd h, if_pos h]

theorem div_part {n i j r s : Nat} (hr : r < n) (hs : s < n) (h : i * n + r = j * n + s) : i = j ∧ r = s := by
  have hn : 0 < n := by omega
  have h1 : (r + n * i) / n = (s + n * j) / n := by
    rw [Nat.mul_comm n i, Nat.mul_comm n j, Nat.add_comm, h, Nat.add_comm]
  rw [Nat.add_mul_div_left _ _ hn, Nat.add_mul_div_left _ _ hn, Nat.div_eq_of_lt hr, Nat.div_eq_of_lt hs] at h1
  have : i = j := by omega
  subst this
  exact ⟨rfl, by omega⟩

theorem inner_inj {a b a' b' k q q' : Nat} (h : [a, b] ∈ m.faces) (h' : [a', b'] ∈ m.faces) (h0 : 0 < q) (h1 : q < k)
    (h0' : 0 < q') (h1' : q' < k) (he : dofAt m.npts k m.faces a b q = dofAt m.npts k m.faces a' b' q') :
    m.faces.idxOf [a, b] = m.faces.idxOf [a', b'] ∧ q = q' := by
  rw [dofAt_inner h h0 h1, dofAt_inner h' h0' h1'] at he
  have := div_part (n := k - 1) (r := q - 1) (s := q' - 1) (by omega) (by omega)
    (by omega : m.faces.idxOf [a, b] * (k - 1) + (q - 1) = m.faces.idxOf [a', b'] * (k - 1) + (q' - 1))
  exact ⟨this.1, by omega⟩

theorem flat_length {α β : Type} (f : α → Nat → β) (k : Nat) (ss : List α) :
    (ss.flatMap fun s => (List.range k).map (f s)).length = ss.length * k := by
  induction ss with
  | nil => simp
  | cons s ss ih => rw [List.flatMap_cons, List.length_append, ih]; simp [Nat.add_mul, Nat.add_comm]

theorem flat_get {α β : Type} (f : α → Nat → β) (k : Nat) (ss : List α) (j q : Nat) (hq : q < k) (s : α)
    (hs : ss[j]? = some s) : (ss.flatMap fun s => (List.range k).map (f s))[j * k + q]? = some (f s q) := by
  induction ss generalizing j with
  | nil => simp at hs
  | cons t ss ih =>
    rw [List.flatMap_cons]
    cases j with
    | zero =>
      simp only [List.getElem?_cons_zero, Option.some.injEq] at hs
      subst hs
      rw [List.getElem?_append_left (by simpa using hq)]
      simp [hq]
    | succ j =>
      rw [List.getElem?_append_right (by simp [Nat.add_mul]; omega)]
      rw [← ih j (by simpa using hs)]
      congr 1
      simp [Nat.add_mul]; omega

theorem cellDofs_length (m : Mesh) (k : Nat) (c : Cell) : (cellDofs m k c).length = (walk c).length * k := by
  rw [cellDofs, flat_length, walkSides, List.length_map, List.length_range]

theorem side_get (l : List Nat) (j : Nat) (hj : j < l.length) :
    (walkSides l)[j]? = some (l.getD j 0, l.getD ((j + 1) % l.length) 0) := by
  rw [walkSides, List.getElem?_map, List.getElem?_range hj]; rfl

theorem cellDofs_get (m : Mesh) (k : Nat) (c : Cell) (j q : Nat) (hj : j < (walk c).length) (hq : q < k) :
    (cellDofs m k c)[j * k + q]? =
      some (dofAt m.npts k m.faces ((walk c).getD j 0) ((walk c).getD ((j + 1) % (walk c).length) 0) q) :=
  flat_get (fun s : Nat × Nat => dofAt m.npts k m.faces s.1 s.2) k _ j q hq _ (side_get _ j hj)

theorem walk_lt (hm : MeshOk m) {c : Cell} (hc : CellOk m.faces c) {j : Nat} (hj : j < (walk c).length) :
    (walk c).getD j 0 < m.npts := by
  have hs := hc.joined _ (List.mem_of_getElem? (side_get _ j hj))
  obtain ⟨a, b, he, -, ha, hb⟩ := hm.ends _ hs
  dsimp only at he
  unfold faceOf at he
  split at he <;> simp only [List.cons.injEq, and_true] at he <;> omega

theorem dofAt_ge {v w k q : Nat} (h0 : 0 < q) (h1 : q < k) : m.npts ≤ dofAt m.npts k m.faces v w q := by
  have a0 : ¬ q = 0 := by omega
  have a1 : ¬ q = k := by omega
  simp only [dofAt, if_neg a0, if_neg a1]
  omega

theorem dofAt_face {v w v' w' k q q' : Nat} (h0 : 0 < q) (h1 : q < k) (h0' : 0 < q') (h1' : q' < k)
    (hv : faceOf m.faces v w ∈ m.faces) (hv' : faceOf m.faces v' w' ∈ m.faces)
    (he : dofAt m.npts k m.faces v w q = dofAt m.npts k m.faces v' w' q') :
    faceOf m.faces v w = faceOf m.faces v' w' := by
  have a0 : ¬ q = 0 := by omega
  have a1 : ¬ q = k := by omega
  have a0' : ¬ q' = 0 := by omega
  have a1' : ¬ q' = k := by omega
  simp only [dofAt, if_neg a0, if_neg a1, if_neg a0', if_neg a1'] at he
  have hr : (if [v, w] ∈ m.faces then q - 1 else k - 1 - q) < k - 1 := by split <;> omega
  have hs : (if [v', w'] ∈ m.faces then q' - 1 else k - 1 - q') < k - 1 := by split <;> omega
  have := (div_part (i := m.faces.idxOf (faceOf m.faces v w)) (j := m.faces.idxOf (faceOf m.faces v' w')) hr hs
    (by omega)).1
  have e := congrArg (fun i => m.faces[i]?) this
  simpa only [get_idx hv, get_idx hv', Option.some.injEq] using e

theorem cellDofs_nodup (hm : MeshOk m) {c : Cell} (hc : CellOk m.faces c) {k : Nat} (hk : 1 ≤ k) :
    (cellDofs m k c).Nodup := by
  have hlen := cellDofs_length m k c
  rw [List.nodup_iff_injective_getElem]
  rintro ⟨x, hx⟩ ⟨y, hy⟩ he
  dsimp only at he
  have key : ∀ x, x < (cellDofs m k c).length → x / k < (walk c).length ∧ x % k < k ∧ x = x / k * k + x % k := by
    intro x hx
    refine ⟨?_, Nat.mod_lt _ (by omega), ?_⟩
    · rw [Nat.div_lt_iff_lt_mul (by omega)]; omega
    · have := Nat.div_add_mod x k; rw [Nat.mul_comm] at this; omega
  obtain ⟨x1, x2, x3⟩ := key x hx
  obtain ⟨y1, y2, y3⟩ := key y hy
  have ex := cellDofs_get m k c _ _ x1 x2
  have ey := cellDofs_get m k c _ _ y1 y2
  rw [← x3, List.getElem?_eq_getElem hx] at ex
  rw [← y3, List.getElem?_eq_getElem hy] at ey
  simp only [Option.some.injEq] at ex ey
  rw [ex, ey] at he
  have jx := hc.joined _ (List.mem_of_getElem? (side_get _ _ x1))
  have jy := hc.joined _ (List.mem_of_getElem? (side_get _ _ y1))
  dsimp only at jx jy
  generalize x / k = i at *
  generalize y / k = j at *
  generalize x % k = p at *
  generalize y % k = q at *
  have hij : i = j ∧ p = q := by
    by_cases hp : p = 0
    · by_cases hq : q = 0
      · subst hp; subst hq
        exact ⟨getD_inj _ hc.nodup x1 y1 (by simpa [dofAt] using he), rfl⟩
      · exfalso
        have h1 := walk_lt hm hc x1
        have h2 := dofAt_ge (m := m) (v := (walk c).getD j 0) (w := (walk c).getD ((j + 1) % (walk c).length) 0)
          (Nat.pos_of_ne_zero hq) y2
        rw [← he] at h2
        subst hp
        simp only [dofAt, if_true] at h2
        omega
    · by_cases hq : q = 0
      · exfalso
        have h1 := walk_lt hm hc y1
        have h2 := dofAt_ge (m := m) (v := (walk c).getD i 0) (w := (walk c).getD ((i + 1) % (walk c).length) 0)
          (Nat.pos_of_ne_zero hp) x2
        rw [he] at h2
        subst hq
        simp only [dofAt, if_true] at h2
        omega
      · have hf := dofAt_face (Nat.pos_of_ne_zero hp) x2 (Nat.pos_of_ne_zero hq) y2 jx jy he
        have hij := sides_distinct m.faces (walk c) hc.nodup hc.three x1 y1 hf
        subst hij
        refine ⟨rfl, ?_⟩
        simp only [dofAt, if_neg hp, if_neg hq, if_neg (Nat.ne_of_lt x2), if_neg (Nat.ne_of_lt y2)] at he
        split at he <;> omega
  obtain ⟨rfl, rfl⟩ := hij
  exact Fin.ext (x3.trans y3.symm)

theorem lookup_some (l : List (Nat × List Nat)) (i : Nat) (h : ∃ x, (i, x) ∈ l) : ∃ x, l.lookup i = some x := by
  induction l with
  | nil => simp at h
  | cons p l ih =>
    obtain ⟨j, y⟩ := p
    by_cases hj : i = j
    · subst hj; exact ⟨y, by simp [List.lookup]⟩
    · obtain ⟨x, hx⟩ := h
      rw [List.mem_cons] at hx
      rcases hx with hx | hx
      · simp only [Prod.mk.injEq] at hx; exact absurd hx.1 hj
      · obtain ⟨z, hz⟩ := ih ⟨x, hx⟩
        refine ⟨z, ?_⟩
        rw [List.lookup]
        have : (i == j) = false := by simpa using hj
        rw [this]; exact hz

theorem lookup_mem (l : List (Nat × List Nat)) (i : Nat) (x : List Nat) (h : l.lookup i = some x) : (i, x) ∈ l := by
  induction l with
  | nil => simp [List.lookup] at h
  | cons p l ih =>
    obtain ⟨j, y⟩ := p
    rw [List.lookup] at h
    by_cases hj : i = j
    · subst hj
      simp only [beq_self_eq_true, Option.some.injEq] at h
      subst h; simp
    · have : (i == j) = false := by simpa using hj
      rw [this] at h
      exact List.mem_cons_of_mem _ (ih h)

end Verif.VemDofs
