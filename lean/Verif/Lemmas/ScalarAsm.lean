import Verif.Model.ScalarAsm
import Verif.Spec.ScalarAsm
import Verif.Lemmas.StokesAsm
/-!
Lemmas on the scalar assemblers with Neumann and Robin conditions.
-/
namespace Verif.ScalarAsm
open Finset Verif.BoundaryCond Verif.Assembly Verif.Spec Verif.VectorAsm
open Verif.StokesAsm (goodMap_append goodMap_block dofsOf_append dofNumber_faces numFree_faces generic_residual mem_localTriplets)

/-! ### Numbering -/

/-- Table of the unknowns. -/
def tab (s : Bnd) : DofTable := faceTable s.fbs s.dir

theorem dir_length (s : Bnd) : s.dir.length = s.faces.length := by simp [Bnd.dir]

theorem dir_get (s : Bnd) (f : Nat) (h : f < s.faces.length) : s.dir[f]? = some s.faces[f].dir := by simp [Bnd.dir, h]

theorem tab_face (s : Bnd) (f : Nat) (d : Bool) (h : s.dir[f]? = some d) :
    (tab s)[f]? = some (s.fbs, fun _ => d) ∧
      (d = false → ∀ i, dofNumber (tab s) f i = unknownPos s.dir f * s.fbs + i) := by
  refine ⟨by simp [tab, faceTable, h], fun hd i => ?_⟩
  subst hd
  exact dofNumber_faces _ _ _ _ h

theorem numFree_tab (s : Bnd) : numFree (tab s) = s.fbs * s.dir.count false := by
  rw [tab, faceTable, numFree_faces, Nat.mul_comm]

/-- Numbers in the compress table. -/
def GoodTable (s : Bnd) (t : List Nat) : Prop :=
  t.length = s.faces.length ∧ ∀ f, s.dir[f]? = some false → t[f]? = some (unknownPos s.dir f)

theorem compressLoop_spec (dir : List Bool) (off : Nat) :
    (compressLoop dir off).length = dir.length ∧
      ∀ f < dir.length, (compressLoop dir off)[f]? = some (off + unknownPos dir f) := by
  induction dir generalizing off with
  | nil => exact ⟨rfl, by simp⟩
  | cons d ds ih =>
    obtain ⟨h1, h2⟩ := ih (if d then off else off + 1)
    refine ⟨by simp [compressLoop, h1], fun f hf => ?_⟩
    cases f with
    | zero => simp [compressLoop, unknownPos]
    | succ f =>
      rw [compressLoop, List.getElem?_cons_succ, h2 f (by simpa using hf)]
      cases d with
      | false => simp [unknownPos]; omega
      | true => simp [unknownPos]

theorem construct_spec (primal : Bool) (s : Bnd) (h : primal = true → s.nbDir = s.dir.count true) :
    ∃ t, construct primal s = .ok (t, numFree (tab s)) ∧ GoodTable s t := by
  have hc := count_true_add_false s.dir
  rw [dir_length] at hc
  cases primal with
  | true =>
    have h := h rfl
    obtain ⟨h1, h2⟩ := compressLoop_spec s.dir 0
    refine ⟨compressLoop s.dir 0, ?_, by rw [h1, dir_length], ?_⟩
    · rw [construct, if_pos rfl, constructPrimal, if_pos (by omega), numFree_tab]
      congr 3
      omega
    · intro f hf
      rw [h2 f (List.getElem?_eq_some_iff.1 hf).1, Nat.zero_add]
  | false =>
    obtain ⟨t, t1, t2, _, t4⟩ := buildTables_spec s.dir
    refine ⟨t.compress, ?_, by rw [t2, dir_length], t4⟩
    rw [construct, if_neg (by simp), constructDiffusion, t1, Outcome.bind_ok, numFree_tab]
    congr 3
    rw [numDirichlet]
    omega

variable {K : Type} [CommRing K]

/-! ### Cells -/

theorem face_block (s : Bnd) (t : List Nat) (ht : GoodTable s t) (f : Nat) (hf : f < s.faces.length) :
    ∃ c, vat t f = .ok c ∧ vat s.faces f = .ok s.faces[f] ∧
      (s.faces[f].dir = false → ∀ i, dofNumber (tab s) f i = c * s.fbs + i) ∧
      GoodMap (tab s) (dofsOf (tab s) [f]) ((List.range s.fbs).map fun i => ⟨c * s.fbs + i, !s.faces[f].dir⟩) := by
  have htl : f < t.length := by rw [ht.1]; exact hf
  have hd := dir_get s f hf
  obtain ⟨b1, b2⟩ := tab_face s f _ hd
  have key : s.faces[f].dir = false → ∀ i, dofNumber (tab s) f i = t[f] * s.fbs + i := by
    intro hdf i
    rw [b2 hdf]
    have := ht.2 f (by rw [hd, hdf])
    rw [List.getElem?_eq_getElem htl, Option.some.injEq] at this
    rw [this]
  exact ⟨t[f], by simp [vat, htl], by simp [vat, hf], key, goodMap_block (tab s) f s.fbs _ _ b1 key⟩

theorem dofs_one (s : Bnd) (f : Nat) (hf : f < s.faces.length) :
    dofsOf (tab s) [f] = (List.range s.fbs).map fun i => (f, i) := by
  simp [dofsOf, (tab_face s f _ (dir_get s f hf)).1]

theorem dofsOf_length (s : Bnd) (fcs : List Nat) (hf : ∀ f ∈ fcs, f < s.faces.length) :
    (dofsOf (tab s) fcs).length = fcs.length * s.fbs := by
  induction fcs with
  | nil => simp [dofsOf]
  | cons f fcs ih =>
    have : dofsOf (tab s) (f :: fcs) = dofsOf (tab s) [f] ++ dofsOf (tab s) fcs := by rw [← dofsOf_append]; rfl
    rw [this, List.length_append, ih fun g hg => hf g (by simp [hg]), dofs_one s f (hf f (by simp))]
    simp; ring

theorem faceLoop_spec (s : Bnd) (t : List Nat) (ht : GoodTable s t) (proj : Nat → Nat → K) (fcs : List Nat)
    (hf : ∀ f ∈ fcs, f < s.faces.length) :
    ∃ a, faceLoop s t proj fcs = .ok a ∧ GoodMap (tab s) (dofsOf (tab s) fcs) a.1 ∧
      ∀ p x, (dofsOf (tab s) fcs)[p]? = some x → (a.1.getD p ⟨0, false⟩).assem = false →
        a.2.getD p 0 = proj x.1 x.2 := by
  induction fcs with
  | nil => exact ⟨([], []), rfl, ⟨rfl, by simp [dofsOf]⟩, by simp [dofsOf]⟩
  | cons f fcs ih =>
    obtain ⟨r, r1, r2, r3⟩ := ih fun g hg => hf g (by simp [hg])
    have hfl := hf f (by simp)
    obtain ⟨c, c1, c2, _, c4⟩ := face_block s t ht f hfl
    have hl : dofsOf (tab s) (f :: fcs) = dofsOf (tab s) [f] ++ dofsOf (tab s) fcs := by rw [← dofsOf_append]; rfl
    refine ⟨_, by simp only [faceLoop, c1, c2, Outcome.bind_ok, r1]; rfl, ?_, ?_⟩
    · rw [hl]
      exact goodMap_append _ _ _ _ _ c4 r2
    · intro p x hx hp
      rw [hl] at hx
      have hlen : (dofsOf (tab s) [f]).length = s.fbs := by rw [dofs_one s f hfl]; simp
      by_cases hpl : p < s.fbs
      · rw [List.getElem?_append_left (by rw [hlen]; exact hpl)] at hx
        rw [getD_append_lt _ _ _ _ (by simpa using hpl)] at hp ⊢
        have hx' : x = (f, p) := by
          rw [dofs_one s f hfl] at hx
          simp [List.getElem?_range hpl] at hx
          exact hx.symm
        subst hx'
        have hd : s.faces[f].dir = true := by
          simpa [List.getD_eq_getElem?_getD, hpl] using hp
        simp [List.getD_eq_getElem?_getD, hpl, hd]
      · rw [List.getElem?_append_right (by rw [hlen]; omega), hlen] at hx
        rw [getD_append_ge _ _ _ _ (by simp; omega)] at hp ⊢
        simp only [List.length_map, List.length_range] at hp ⊢
        exact r3 _ x hx hp

theorem duoSum_one (a : Nat) (b : K) (g : Nat) : duoSum [(a, b)] g = if a = g then b else 0 := by
  simp [duoSum]

theorem duoSum_rowDuos (asm : List AsmIdx) (dd : List K) (lhs : Nat → Nat → K) (rhs : Nat → K) (n g : Nat) :
    duoSum (rowDuos asm dd lhs rhs n) g = duoSum (localDuos asm rhs (fun i => ∑ j ∈ range n,
      if (asm.getD j ⟨0, false⟩).assem then 0 else lhs i j * dd.getD j 0) n) g := by
  rw [rowDuos, duoSum_local, duoSum_flatMap]
  refine sum_congr rfl fun i _ => ?_
  generalize asm.getD i ⟨0, false⟩ = ai
  cases ha : ai.assem with
  | false => simp [duoSum]
  | true =>
    rw [if_pos rfl, duoSum_append, duoSum_flatMap, duoSum_one]
    by_cases hg : ai.idx = g
    · rw [if_pos hg, if_pos ⟨rfl, hg⟩]
      have : ∀ j, duoSum (if (asm.getD j ⟨0, false⟩).assem = true then []
          else [(ai.idx, -lhs i j * dd.getD j 0)]) g =
          -(if (asm.getD j ⟨0, false⟩).assem = true then 0 else lhs i j * dd.getD j 0) := by
        intro j
        cases (asm.getD j ⟨0, false⟩).assem with
        | true => simp [duoSum]
        | false => rw [if_neg (by simp), duoSum_one, if_pos hg, if_neg (by simp)]; ring
      rw [sum_congr rfl fun j _ => this j, sum_neg_distrib]
      ring
    · rw [if_neg hg, if_neg (fun h : true = true ∧ ai.idx = g => hg h.2), sum_eq_zero, add_zero]
      intro j _
      cases (asm.getD j ⟨0, false⟩).assem with
      | true => simp [duoSum]
      | false => rw [if_neg (by simp), duoSum_one, if_neg hg]

/-- A cell fits the mesh. -/
def GoodCell (s : Bnd) (c : ScalarCell K) : Prop :=
  (∀ f ∈ c.fcs, f < s.faces.length) ∧ c.size = c.fcs.length * s.fbs

/-- Residual of a cell. -/
def cellRes (s : Bnd) (w : Nat × Nat → K) (c : ScalarCell K) (y : Nat × Nat) : K :=
  dofResidual (dofsOf (tab s) c.fcs) c.lhs c.rhs w y

/-- Triplets and pairs with a given residual. -/
structure Contributes (s : Bnd) (proj : Nat → Nat → K) (t : List (Nat × Nat × K)) (d : List (Nat × K))
    (R : (Nat × Nat → K) → Nat × Nat → K) : Prop where
  trip : ∀ y ∈ t, y.1 < numFree (tab s) ∧ y.2.1 < numFree (tab s)
  duo : ∀ y ∈ d, y.1 < numFree (tab s)
  res : ∀ (u : Nat → K) (y : Nat × Nat), IsFreeDof (tab s) y.1 y.2 →
    rowSum t u (dofNumber (tab s) y.1 y.2) - duoSum d (dofNumber (tab s) y.1 y.2) = R (dofValue (tab s) proj u) y

theorem contributes_nil (s : Bnd) (proj : Nat → Nat → K) : Contributes s proj [] [] fun _ _ => 0 :=
  ⟨by simp, by simp, by simp [rowSum, duoSum]⟩

theorem Contributes.append {s : Bnd} {proj : Nat → Nat → K} {t t' : List (Nat × Nat × K)} {d d' : List (Nat × K)}
    {R R' : (Nat × Nat → K) → Nat × Nat → K} (h : Contributes s proj t d R) (h' : Contributes s proj t' d' R') :
    Contributes s proj (t ++ t') (d ++ d') fun w y => R w y + R' w y := by
  refine ⟨?_, ?_, ?_⟩
  · intro y hy
    rcases List.mem_append.1 hy with hy | hy
    · exact h.trip y hy
    · exact h'.trip y hy
  · intro y hy
    rcases List.mem_append.1 hy with hy | hy
    · exact h.duo y hy
    · exact h'.duo y hy
  · intro u y hy
    rw [rowSum_append, duoSum_append, ← h.res u y hy, ← h'.res u y hy]
    ring

theorem assemble_spec (s : Bnd) (t : List Nat) (ht : GoodTable s t) (proj : Nat → Nat → K) (c : ScalarCell K)
    (hc : GoodCell s c) :
    ∃ a, assemble s t proj c = .ok a ∧ Contributes s proj a.1 a.2 fun w y => cellRes s w c y := by
  obtain ⟨a, a1, a2, a3⟩ := faceLoop_spec s t ht proj c.fcs hc.1
  have hlen := dofsOf_length s c.fcs hc.1
  have hsz : c.size = (dofsOf (tab s) c.fcs).length := by rw [hlen, hc.2]
  have hv : ∀ i, (a.1.getD i ⟨0, false⟩).assem = true → (a.1.getD i ⟨0, false⟩).idx < numFree (tab s) := by
    intro i h
    obtain ⟨x, _, x2, x3⟩ := goodMap_free _ _ _ a2 i h
    rw [x3]
    exact dofNumber_lt _ _ _ x2
  refine ⟨_, by rw [assemble, a1, Outcome.bind_ok, if_pos (by rw [a2.1, hsz])], ?_, ?_, ?_⟩
  · intro y hy
    obtain ⟨i, hi, j, hj, h1, h2, rfl⟩ := mem_localTriplets _ _ _ _ hy
    exact ⟨hv i h1, hv j h2⟩
  · intro y hy
    simp only [rowDuos, List.mem_flatMap, List.mem_range] at hy
    obtain ⟨i, hi, hy⟩ := hy
    cases h1 : (a.1.getD i ⟨0, false⟩).assem with
    | false => rw [h1] at hy; simp at hy
    | true =>
      rw [h1, if_pos rfl, List.mem_append] at hy
      rcases hy with hy | hy
      · simp only [List.mem_flatMap, List.mem_range] at hy
        obtain ⟨j, hj, hy⟩ := hy
        cases h2 : (a.1.getD j ⟨0, false⟩).assem with
        | true => rw [h2] at hy; simp at hy
        | false =>
          rw [h2] at hy
          simp only [Bool.false_eq_true, if_false, List.mem_singleton] at hy
          subst hy
          exact hv i h1
      · rw [List.mem_singleton] at hy
        subst hy
        exact hv i h1
  · intro u y hy
    rw [duoSum_rowDuos, hsz]
    refine generic_residual (tab s) _ _ a2 c.lhs c.rhs _ proj ?_ u y hy
    intro p hp
    refine sum_congr rfl fun q hq => ?_
    have hq := mem_range.1 hq
    have hgq : (dofsOf (tab s) c.fcs)[q]? = some (dofsOf (tab s) c.fcs)[q] := by simp [hq]
    rw [hgq, Option.elim_some]
    cases hb : (a.1.getD q ⟨0, false⟩).assem with
    | true => simp
    | false => rw [a3 q _ hgq hb]

/-- Sum of the residuals of the cells. -/
def cellsRes (s : Bnd) (cells : List (ScalarCell K)) (w : Nat × Nat → K) (y : Nat × Nat) : K :=
  (cells.map fun c => cellRes s w c y).sum

theorem assembleCells_spec (s : Bnd) (t : List Nat) (ht : GoodTable s t) (proj : Nat → Nat → K) (cells : List (ScalarCell K))
    (hc : ∀ c ∈ cells, GoodCell s c) :
    ∃ a, assembleCells s t proj cells = .ok a ∧ Contributes s proj a.1 a.2 (cellsRes s cells) := by
  induction cells with
  | nil => exact ⟨([], []), rfl, contributes_nil s proj⟩
  | cons c cs ih =>
    obtain ⟨r, r1, r2⟩ := ih fun x hx => hc x (by simp [hx])
    obtain ⟨a, a1, a2⟩ := assemble_spec s t ht proj c (hc c (by simp))
    exact ⟨_, by simp only [assembleCells, a1, r1, Outcome.bind_ok]; rfl, a2.append r2⟩

/-! ### Boundary terms -/

theorem free_iff (s : Bnd) (f : Nat) (hf : f < s.faces.length) (i : Nat) :
    IsFreeDof (tab s) f i ↔ i < s.fbs ∧ s.faces[f].dir = false := by
  have := (tab_face s f _ (dir_get s f hf)).1
  constructor
  · rintro ⟨d, d1, d2, d3⟩
    rw [this, Option.some.injEq] at d1
    subst d1
    exact ⟨d2, d3⟩
  · rintro ⟨h1, h2⟩
    exact ⟨_, this, h1, h2⟩

/-- Pairs at the numbers of a free face. -/
theorem duoSum_face (s : Bnd) (f : Nat) (hf : f < s.faces.length) (hd : s.faces[f].dir = false) (c : Nat)
    (hc : ∀ i, dofNumber (tab s) f i = c * s.fbs + i) (g : Nat → K) (y : Nat × Nat) (hy : IsFreeDof (tab s) y.1 y.2) :
    duoSum ((List.range s.fbs).map fun i => (c * s.fbs + i, g i)) (dofNumber (tab s) y.1 y.2) =
      if f = y.1 then g y.2 else 0 := by
  have e : ((List.range s.fbs).map fun i => (c * s.fbs + i, g i)) =
      (List.range s.fbs).flatMap fun i => [(dofNumber (tab s) f i, g i)] := by
    rw [List.map_eq_flatMap]
    exact List.flatMap_congr fun i _ => by rw [hc]
  rw [e, duoSum_flatMap]
  have hone : ∀ i ∈ range s.fbs, duoSum [(dofNumber (tab s) f i, g i)] (dofNumber (tab s) y.1 y.2) =
      if f = y.1 ∧ i = y.2 then g i else 0 := by
    intro i hi
    have hfi : IsFreeDof (tab s) f i := (free_iff s f hf i).2 ⟨mem_range.1 hi, hd⟩
    by_cases h : f = y.1 ∧ i = y.2
    · rw [if_pos h, ← h.1, ← h.2]
      simp [duoSum]
    · rw [if_neg h]
      have : dofNumber (tab s) f i ≠ dofNumber (tab s) y.1 y.2 := fun h' => h (dofNumber_inj _ _ _ _ _ hfi hy h')
      simp [duoSum, this]
  rw [sum_congr rfl hone]
  by_cases hfy : f = y.1
  · have hy2 : y.2 < s.fbs := by
      rw [← hfy] at hy
      exact ((free_iff s f hf _).1 hy).1
    simp [hfy, hy2]
  · simp [hfy]

theorem face_lt (s : Bnd) (f : Nat) (hf : f < s.faces.length) (hd : s.faces[f].dir = false) (c : Nat)
    (hc : ∀ i, dofNumber (tab s) f i = c * s.fbs + i) (i : Nat) (hi : i < s.fbs) : c * s.fbs + i < numFree (tab s) := by
  rw [← hc]
  exact dofNumber_lt _ _ _ ((free_iff s f hf i).2 ⟨hi, hd⟩)

theorem neumann_face (s : Bnd) (proj : Nat → Nat → K) (f : Nat) (hf : f < s.faces.length) (hd : s.faces[f].dir = false) (c : Nat)
    (hc : ∀ i, dofNumber (tab s) f i = c * s.fbs + i) (g : Nat → Nat → K) :
    Contributes s proj [] ((List.range s.fbs).map fun i => (c * s.fbs + i, g f i)) fun _ y => neumannTerm g f y := by
  refine ⟨by simp, ?_, ?_⟩
  · intro y hy
    simp only [List.mem_map, List.mem_range] at hy
    obtain ⟨i, hi, rfl⟩ := hy
    exact face_lt s f hf hd c hc i hi
  · intro u y hy
    rw [duoSum_face s f hf hd c hc (g f) y hy, neumannTerm]
    by_cases h : f = y.1 <;> simp [h, rowSum]

theorem robin_face (s : Bnd) (proj : Nat → Nat → K) (f : Nat) (hf : f < s.faces.length) (hd : s.faces[f].dir = false) (c : Nat)
    (hc : ∀ i, dofNumber (tab s) f i = c * s.fbs + i) (g : Nat → Nat → K) (M : Nat → Nat → Nat → K) :
    Contributes s proj (robinFace s c (g f) (M f)).1 (robinFace s c (g f) (M f)).2 fun w y => robinTerm s.fbs g M w f y := by
  refine ⟨?_, ?_, ?_⟩
  · intro y hy
    simp only [robinFace, List.mem_flatMap, List.mem_map, List.mem_range] at hy
    obtain ⟨i, hi, j, hj, rfl⟩ := hy
    exact ⟨face_lt s f hf hd c hc i hi, face_lt s f hf hd c hc j hj⟩
  · intro y hy
    simp only [robinFace, List.mem_map, List.mem_range] at hy
    obtain ⟨i, hi, rfl⟩ := hy
    exact face_lt s f hf hd c hc i hi
  · intro u y hy
    have hval : ∀ j, dofValue (tab s) proj u (f, j) = u (c * s.fbs + j) := by
      intro j
      rw [dofValue, (tab_face s f _ (dir_get s f hf)).1, ← hc]
      simp [hd]
    have hrow : rowSum (robinFace s c (g f) (M f)).1 u (dofNumber (tab s) y.1 y.2) =
        if f = y.1 then ∑ j ∈ range s.fbs, M f y.2 j * u (c * s.fbs + j) else 0 := by
      rw [← duoSum_face s f hf hd c hc (fun i => ∑ j ∈ range s.fbs, M f i j * u (c * s.fbs + j)) y hy]
      have e : ((List.range s.fbs).map fun i => (c * s.fbs + i, ∑ j ∈ range s.fbs, M f i j * u (c * s.fbs + j))) =
          (List.range s.fbs).flatMap fun i => [(c * s.fbs + i, ∑ j ∈ range s.fbs, M f i j * u (c * s.fbs + j))] := by
        rw [List.map_eq_flatMap]
      rw [e, duoSum_flatMap, robinFace, rowSum_flatMap]
      refine sum_congr rfl fun i _ => ?_
      have e2 : ((List.range s.fbs).map fun j => (c * s.fbs + i, c * s.fbs + j, M f i j)) =
          (List.range s.fbs).flatMap fun j => [(c * s.fbs + i, c * s.fbs + j, M f i j)] := by
        rw [List.map_eq_flatMap]
      rw [e2, rowSum_flatMap]
      by_cases h : c * s.fbs + i = dofNumber (tab s) y.1 y.2
      · simp [duoSum, rowSum, h]
      · simp [duoSum, rowSum, h]
    rw [hrow, robinFace, duoSum_face s f hf hd c hc (g f) y hy, robinTerm]
    by_cases h : f = y.1
    · rw [if_pos h, if_pos h, if_pos h]
      simp only [hval]
    · simp [h]

/-- Flag of a face. -/
def flag (s : Bnd) (k : ScalarFace → Bool) (f : Nat) : Bool := (s.faces[f]?).elim false k

/-- Neumann part of the residual. -/
def neumannRes (s : Bnd) (g : Nat → Nat → K) (fs : List Nat) (y : Nat × Nat) : K :=
  (fs.map fun f => if flag s (·.neu) f then neumannTerm g f y else 0).sum

/-- Robin part of the residual. -/
def robinRes (s : Bnd) (g : Nat → Nat → K) (M : Nat → Nat → Nat → K) (fs : List Nat) (w : Nat × Nat → K) (y : Nat × Nat) : K :=
  (fs.map fun f => if flag s (·.rob) f then robinTerm s.fbs g M w f y else 0).sum

theorem neumannLoop_spec (s : Bnd) (t : List Nat) (ht : GoodTable s t) (proj : Nat → Nat → K) (g : Nat → Nat → K)
    (fs : List Nat) (hf : ∀ f ∈ fs, f < s.faces.length)
    (hx : ∀ x ∈ s.faces, x.neu = true → x.dir = false ∧ x.rob = false) :
    ∃ d, neumannLoop s t g fs = .ok d ∧ Contributes s proj [] d fun _ y => neumannRes s g fs y := by
  induction fs with
  | nil => exact ⟨[], rfl, contributes_nil s proj⟩
  | cons f fs ih =>
    obtain ⟨r, r1, r2⟩ := ih fun g hg => hf g (by simp [hg])
    have hfl := hf f (by simp)
    obtain ⟨c, c1, c2, c3, _⟩ := face_block s t ht f hfl
    have hfg : flag s (·.neu) f = s.faces[f].neu := by simp [flag, hfl]
    cases hn : s.faces[f].neu with
    | false =>
      refine ⟨r, by simp [neumannLoop, c2, hn, r1], ?_⟩
      simpa [neumannRes, hfg, hn] using r2
    | true =>
      obtain ⟨hd, hr⟩ := hx _ (List.getElem_mem hfl) hn
      refine ⟨_, by simp only [neumannLoop, c1, c2, hn, hd, hr, r1, Outcome.bind_ok, if_true, Bool.false_eq_true, if_false]; rfl, ?_⟩
      have := (neumann_face s proj f hfl hd c (c3 hd) g).append r2
      simpa [neumannRes, hfg, hn] using this

theorem robinLoop_spec (s : Bnd) (t : List Nat) (ht : GoodTable s t) (proj : Nat → Nat → K) (g : Nat → Nat → K)
    (M : Nat → Nat → Nat → K) (fs : List Nat) (hf : ∀ f ∈ fs, f < s.faces.length)
    (hx : ∀ x ∈ s.faces, x.rob = true → x.dir = false ∧ x.neu = false) :
    ∃ d, robinLoop s t g M fs = .ok d ∧ Contributes s proj d.1 d.2 (robinRes s g M fs) := by
  induction fs with
  | nil => exact ⟨([], []), rfl, contributes_nil s proj⟩
  | cons f fs ih =>
    obtain ⟨r, r1, r2⟩ := ih fun g hg => hf g (by simp [hg])
    have hfl := hf f (by simp)
    obtain ⟨c, c1, c2, c3, _⟩ := face_block s t ht f hfl
    have hfg : flag s (·.rob) f = s.faces[f].rob := by simp [flag, hfl]
    have hrec : ∀ w y, robinRes s g M (f :: fs) w y =
        (if s.faces[f].rob then robinTerm s.fbs g M w f y else 0) + robinRes s g M fs w y := by
      intro w y; simp [robinRes, hfg]
    cases hn : s.faces[f].rob with
    | false =>
      refine ⟨r, by simp [robinLoop, c2, hn, r1], ?_⟩
      have : robinRes s g M (f :: fs) = robinRes s g M fs := by
        funext w y; rw [hrec, hn]; simp
      rw [this]
      exact r2
    | true =>
      obtain ⟨hd, hr⟩ := hx _ (List.getElem_mem hfl) hn
      refine ⟨_, by simp only [robinLoop, c1, c2, hn, hd, hr, r1, Outcome.bind_ok, if_true, Bool.false_eq_true, if_false]; rfl, ?_⟩
      have := (robin_face s proj f hfl hd c (c3 hd) g M).append r2
      have e : robinRes s g M (f :: fs) = fun w y => robinTerm s.fbs g M w f y + robinRes s g M fs w y := by
        funext w y; rw [hrec, hn]; simp
      rw [e]
      exact this

/-! ### Whole system -/

/-- Residual with the boundary terms. -/
def fullRes (withNeu : Bool) (s : Bnd) (D : ScalarData K) (cells : List (ScalarCell K)) (w : Nat × Nat → K) (y : Nat × Nat) : K :=
  cellsRes s cells w y + (if withNeu then neumannRes s D.neu s.bfaces y else 0) + robinRes s D.rob D.mass s.bfaces w y

/-- Counters of Neumann and Robin faces are positive if there are any, boundary faces exist, no face has two conditions. -/
structure GoodBnd (s : Bnd) : Prop where
  nbNeu : s.nbNeu = 0 → ∀ x ∈ s.faces, x.neu = false
  nbRob : s.nbRob = 0 → ∀ x ∈ s.faces, x.rob = false
  bnd : ∀ f ∈ s.bfaces, f < s.faces.length
  neu : ∀ x ∈ s.faces, x.neu = true → x.dir = false ∧ x.rob = false
  rob : ∀ x ∈ s.faces, x.rob = true → x.dir = false ∧ x.neu = false

theorem sum_zero (fs : List Nat) (F : Nat → K) (h : ∀ f ∈ fs, F f = 0) : (fs.map F).sum = 0 := by
  induction fs with
  | nil => rfl
  | cons f fs ih => rw [List.map_cons, List.sum_cons, h f (by simp), ih fun g hg => h g (by simp [hg]), add_zero]

theorem flag_false (s : Bnd) (k : ScalarFace → Bool) (h : ∀ x ∈ s.faces, k x = false) (f : Nat) : flag s k f = false := by
  unfold flag
  cases hf : s.faces[f]? with
  | none => rfl
  | some x => exact h x (List.mem_of_getElem? hf)

theorem imposeNeumann_spec (primal : Bool) (s : Bnd) (hs : GoodBnd s) (hp : primal = true ∨ 0 < s.nbNeu) (t : List Nat)
    (ht : GoodTable s t) (proj g : Nat → Nat → K) :
    ∃ d, imposeNeumann primal s t g = .ok d ∧ Contributes s proj [] d fun _ y => neumannRes s g s.bfaces y := by
  by_cases h0 : 0 < s.nbNeu
  · rw [imposeNeumann, if_pos h0]
    exact neumannLoop_spec s t ht proj g s.bfaces hs.bnd hs.neu
  · have hp : primal = true := hp.resolve_right h0
    refine ⟨[], by rw [imposeNeumann, if_neg h0, if_pos hp], ?_⟩
    have : (fun (_ : Nat × Nat → K) y => neumannRes s g s.bfaces y) = fun _ _ => 0 := by
      funext _ y
      refine sum_zero _ _ fun f _ => ?_
      rw [flag_false s (·.neu) (hs.nbNeu (by omega))]
      rfl
    rw [this]
    exact contributes_nil s proj

theorem imposeRobin_spec (s : Bnd) (hs : GoodBnd s) (t : List Nat) (ht : GoodTable s t) (proj g : Nat → Nat → K)
    (M : Nat → Nat → Nat → K) :
    ∃ d, imposeRobin s t g M = .ok d ∧ Contributes s proj d.1 d.2 (robinRes s g M s.bfaces) := by
  by_cases h0 : 0 < s.nbRob
  · rw [imposeRobin, if_pos h0]
    exact robinLoop_spec s t ht proj g M s.bfaces hs.bnd hs.rob
  · refine ⟨([], []), by rw [imposeRobin, if_neg h0], ?_⟩
    have : robinRes s g M s.bfaces = fun _ _ => 0 := by
      funext w y
      refine sum_zero _ _ fun f _ => ?_
      rw [flag_false s (·.rob) (hs.nbRob (by omega))]
      rfl
    rw [this]
    exact contributes_nil s proj

theorem system_spec (primal withNeu : Bool) (s : Bnd) (hs : GoodBnd s) (hd : primal = true → s.nbDir = s.dir.count true)
    (hp : withNeu = true → primal = true ∨ 0 < s.nbNeu) (D : ScalarData K) (cells : List (ScalarCell K))
    (hc : ∀ c ∈ cells, GoodCell s c) :
    ∃ A b, system primal withNeu s D cells = .ok (numFree (tab s), A, b) ∧
      ∀ (u : Nat → K) (y : Nat × Nat), IsFreeDof (tab s) y.1 y.2 →
        (∑ j ∈ range (numFree (tab s)), A (dofNumber (tab s) y.1 y.2) j * u j) - b (dofNumber (tab s) y.1 y.2) =
          fullRes withNeu s D cells (dofValue (tab s) D.proj u) y := by
  obtain ⟨t, t1, t2⟩ := construct_spec primal s hd
  obtain ⟨a, a1, a2⟩ := assembleCells_spec s t t2 D.proj cells hc
  obtain ⟨n, n1, n2⟩ : ∃ n, (if withNeu then imposeNeumann primal s t D.neu else .ok []) = .ok n ∧
      Contributes s D.proj [] n fun _ y => if withNeu then neumannRes s D.neu s.bfaces y else 0 := by
    cases withNeu with
    | true =>
      obtain ⟨n, n1, n2⟩ := imposeNeumann_spec primal s hs (hp rfl) t t2 D.proj D.neu
      exact ⟨n, by rw [if_pos rfl, n1], by simpa using n2⟩
    | false => exact ⟨[], rfl, by simpa using contributes_nil s D.proj⟩
  obtain ⟨r, r1, r2⟩ := imposeRobin_spec s hs t t2 D.proj D.rob D.mass
  have hall := (a2.append n2).append r2
  rw [List.append_nil] at hall
  obtain ⟨b, b1, b2⟩ := finish_spec (numFree (tab s)) (a.1 ++ r.1) (a.2 ++ n ++ r.2) (fun _ => 0) hall.trip hall.duo
  refine ⟨toMat (a.1 ++ r.1), b, by simp only [system, t1, a1, n1, r1, b1, Outcome.bind_ok], fun u y hy => ?_⟩
  rw [toMat_apply _ _ (fun x hx => (hall.trip x hx).2), b2, zero_add, hall.res u y hy, fullRes]

/-! ### Conflicting conditions -/

theorem neumannLoop_throws (s : Bnd) (t : List Nat) (ht : GoodTable s t) (g : Nat → Nat → K) (fs : List Nat)
    (hf : ∀ f ∈ fs, f < s.faces.length) (f : Nat) (hm : f ∈ fs) (x : ScalarFace) (hx : s.faces[f]? = some x)
    (hn : x.neu = true) (hc : x.dir = true ∨ x.rob = true) : ∃ e, neumannLoop s t g fs = .throws e := by
  induction fs with
  | nil => simp at hm
  | cons f' fs ih =>
    have hfl := hf f' (by simp)
    obtain ⟨c, c1, c2, _, _⟩ := face_block s t ht f' hfl
    by_cases hff : f' = f
    · subst hff
      rw [List.getElem?_eq_getElem hfl, Option.some.injEq] at hx
      rcases hd : x.dir with _ | _
      · have hr : x.rob = true := hc.resolve_left (by simp [hd])
        exact ⟨_, by simp only [neumannLoop, c2, Outcome.bind_ok, hx, hn, hd, hr, if_true, Bool.false_eq_true, if_false]; rfl⟩
      · exact ⟨_, by simp only [neumannLoop, c2, Outcome.bind_ok, hx, hn, hd, if_true]; rfl⟩
    · obtain ⟨e, he⟩ := ih (fun g hg => hf g (by simp [hg])) (by
        rcases List.mem_cons.1 hm with h | h
        · exact absurd h.symm hff
        · exact h)
      rcases hN : s.faces[f'].neu with _ | _
      · exact ⟨e, by simp only [neumannLoop, c2, Outcome.bind_ok, hN, Bool.false_eq_true, if_false, he]; rfl⟩
      rcases hD : s.faces[f'].dir with _ | _
      · rcases hR : s.faces[f'].rob with _ | _
        · exact ⟨e, by simp only [neumannLoop, c1, c2, Outcome.bind_ok, hN, hD, hR, if_true, Bool.false_eq_true, if_false, he]; rfl⟩
        · exact ⟨_, by simp only [neumannLoop, c2, Outcome.bind_ok, hN, hD, hR, if_true, Bool.false_eq_true, if_false]; rfl⟩
      · exact ⟨_, by simp only [neumannLoop, c2, Outcome.bind_ok, hN, hD, if_true]; rfl⟩

theorem robinLoop_throws (s : Bnd) (t : List Nat) (ht : GoodTable s t) (g : Nat → Nat → K) (M : Nat → Nat → Nat → K)
    (fs : List Nat) (hf : ∀ f ∈ fs, f < s.faces.length) (f : Nat) (hm : f ∈ fs) (x : ScalarFace)
    (hx : s.faces[f]? = some x) (hn : x.rob = true) (hc : x.dir = true ∨ x.neu = true) :
    ∃ e, robinLoop s t g M fs = .throws e := by
  induction fs with
  | nil => simp at hm
  | cons f' fs ih =>
    have hfl := hf f' (by simp)
    obtain ⟨c, c1, c2, _, _⟩ := face_block s t ht f' hfl
    have two : ∀ (p : Prop) [Decidable p] (a b : String), ∃ e, (if p then (.throws a : Outcome (List (Nat × Nat × K) × List (Nat × K)))
        else .throws b) = .throws e := by
      intro p _ a b
      by_cases hp : p
      · exact ⟨a, by rw [if_pos hp]⟩
      · exact ⟨b, by rw [if_neg hp]⟩
    by_cases hff : f' = f
    · subst hff
      rw [List.getElem?_eq_getElem hfl, Option.some.injEq] at hx
      rcases hd : x.neu with _ | _
      · have hr : x.dir = true := hc.resolve_right (by simp [hd])
        obtain ⟨e, he⟩ := two (x.dtype = DIRICHLET) "invalid_argument: Dirichlet and Robin" "logic_error: Unknown Dirichlet"
        exact ⟨e, by simp only [robinLoop, c2, Outcome.bind_ok, hx, hn, hd, hr, if_true, Bool.false_eq_true, if_false, he]; rfl⟩
      · obtain ⟨e, he⟩ := two (x.ntype = NEUMANN) "invalid_argument: Neumann and Robin" "logic_error: Unknown Neumann"
        exact ⟨e, by simp only [robinLoop, c2, Outcome.bind_ok, hx, hn, hd, if_true, he]; rfl⟩
    · obtain ⟨e, he⟩ := ih (fun g hg => hf g (by simp [hg])) (by
        rcases List.mem_cons.1 hm with h | h
        · exact absurd h.symm hff
        · exact h)
      rcases hN : s.faces[f'].rob with _ | _
      · exact ⟨e, by simp only [robinLoop, c2, Outcome.bind_ok, hN, Bool.false_eq_true, if_false, he]; rfl⟩
      rcases hD : s.faces[f'].neu with _ | _
      · rcases hR : s.faces[f'].dir with _ | _
        · exact ⟨e, by simp only [robinLoop, c1, c2, Outcome.bind_ok, hN, hD, hR, if_true, Bool.false_eq_true, if_false, he]; rfl⟩
        · obtain ⟨e, he⟩ := two (s.faces[f'].dtype = DIRICHLET) "invalid_argument: Dirichlet and Robin" "logic_error: Unknown Dirichlet"
          exact ⟨e, by simp only [robinLoop, c2, Outcome.bind_ok, hN, hD, hR, if_true, Bool.false_eq_true, if_false, he]; rfl⟩
      · obtain ⟨e, he⟩ := two (s.faces[f'].ntype = NEUMANN) "invalid_argument: Neumann and Robin" "logic_error: Unknown Neumann"
        exact ⟨e, by simp only [robinLoop, c2, Outcome.bind_ok, hN, hD, if_true, he]; rfl⟩

/-! ### Solution -/

theorem takeFaces_spec (s : Bnd) (t : List Nat) (ht : GoodTable s t) (proj : Nat → Nat → K) (sol : List K)
    (hs : sol.length = numFree (tab s)) (fcs : List Nat) (hf : ∀ f ∈ fcs, f < s.faces.length) :
    takeFaces s t proj sol fcs = .ok ((dofsOf (tab s) fcs).map (dofValue (tab s) proj fun j => sol.getD j 0)) := by
  induction fcs with
  | nil => rfl
  | cons f fcs ih =>
    have ih := ih fun g hg => hf g (by simp [hg])
    have hfl := hf f (by simp)
    obtain ⟨c, c1, c2, c3, _⟩ := face_block s t ht f hfl
    have hl : dofsOf (tab s) (f :: fcs) = dofsOf (tab s) [f] ++ dofsOf (tab s) fcs := by rw [← dofsOf_append]; rfl
    have htab := (tab_face s f _ (dir_get s f hfl)).1
    rw [hl, List.map_append, dofs_one s f hfl, List.map_map]
    cases hd : s.faces[f].dir with
    | true =>
      simp only [takeFaces, c2, Outcome.bind_ok, hd, if_true, ih]
      congr 2
      refine List.map_congr_left fun i _ => ?_
      simp [dofValue, htab, hd]
    | false =>
      have c3 := c3 hd
      have hle : c * s.fbs + s.fbs ≤ sol.length := by
        have := dofNumber_le (tab s) f s.fbs _ htab (le_refl _)
        rwa [c3, ← hs] at this
      simp only [takeFaces, c1, c2, Outcome.bind_ok, hd, Bool.false_eq_true, if_false, ih, vseg, if_pos hle]
      congr 2
      apply List.ext_getElem
      · simp; omega
      · intro i h1 h2
        simp only [List.length_map, List.length_range] at h2
        simp [dofValue, htab, hd, c3, List.getElem?_eq_getElem (show c * s.fbs + i < sol.length by omega)]

end Verif.ScalarAsm
