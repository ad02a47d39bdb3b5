import Verif.Lemmas.VemSystem
import Mathlib.Algebra.Order.Field.Rat
import Verif.Props.Vem
import Mathlib.Tactic.Linarith
import Mathlib.Tactic.Positivity
import Mathlib.Tactic.NormNum
/-! C146: the global system of the virtual element method. -/
namespace Verif.Props.VemSystem
open Verif.VemDofs Verif.Spec.VemDofs Verif.Spec.VemSystem Verif.VemSystem Verif.Condensation
open Verif.MeshTopo (BDesc)

/-- C146: the marks are the unknowns on the faces of the boundary, ends included, and `nbndfcs` is the number of faces
marked as boundary. -/
theorem c146_marks (m : Mesh) (hm : MeshOk m) (k : Nat) (hk : 1 ≤ k) :
    ∃ M l, construct m k = .ok M ∧
      markLoop m M m.faces (List.replicate (totdofs m k) false, 0) = .ok (l, boundaryFaces m) ∧
      l.length = totdofs m k ∧ ∀ n : Nat, l[n]? = some true ↔ OnBoundary m k n := by
  obtain ⟨l, h1, h2, h3⟩ := marks_eq hm hk (construct_ok hm hk)
  exact ⟨_, l, construct_ok hm hk, h1, h2, h3⟩

example : ((construct Props.VemDofs.exMesh 2).bind fun M => markLoop Props.VemDofs.exMesh M Props.VemDofs.exMesh.faces
    (List.replicate 9 false, 0)) = .ok ([true, true, true, true, true, true, false, true, true], 4) := by decide +kernel

/-- C146: if all faces marked as boundary are outer faces of cells, the assertion on the number of marks holds exactly
if the boundary has as many points as faces. -/
theorem c146_guard (m : Mesh) (hm : MeshOk m) (k : Nat) (hk : 1 ≤ k) (hp : Proper m) :
    ∃ M, construct m k = .ok M ∧
      (boundaryPoints m = boundaryFaces m → ∃ l, marks m k M = .ok l) ∧
      (boundaryPoints m ≠ boundaryFaces m → (marks m k M).IsUB) := by
  obtain ⟨l, h1, h2, h3⟩ := marks_eq hm hk (construct_ok hm hk)
  refine ⟨_, construct_ok hm hk, fun he => ⟨l, ?_⟩, fun he => ?_⟩
  · rw [marks, h1, Outcome.bind_ok]
    dsimp only
    have hg : l.count true = k * boundaryFaces m := by
      rw [count_marks hm hk hp h2 h3, he, Nat.sub_mul, Nat.one_mul]
      have : boundaryFaces m ≤ k * boundaryFaces m := Nat.le_mul_of_pos_left _ (by omega)
      omega
    rw [if_pos hg]
  · rw [marks, h1, Outcome.bind_ok]
    dsimp only
    have hg : ¬ l.count true = k * boundaryFaces m := by
      rw [count_marks hm hk hp h2 h3, Nat.sub_mul, Nat.one_mul]
      have : boundaryFaces m ≤ k * boundaryFaces m := Nat.le_mul_of_pos_left _ (by omega)
      omega
    rw [if_neg hg]
    trivial

theorem exMesh_proper : Proper Props.VemDofs.exMesh := by
  intro i d hd hB
  have hlt := (List.getElem?_eq_some_iff.1 hd).1
  have h5 : i < 5 := hlt
  have hof : ∀ f ∈ Props.VemDofs.exMesh.faces, OfCell Props.VemDofs.exMesh f := by
    unfold OfCell
    decide +kernel
  obtain ⟨f, hf⟩ : ∃ f, Props.VemDofs.exMesh.faces[i]? = some f := ⟨_, List.getElem?_eq_getElem (by exact h5)⟩
  refine ⟨f, d, hf, hd, hB, ?_, hof f (List.mem_of_getElem? hf)⟩
  have : ∀ d ∈ Props.VemDofs.exMesh.binfo, d.isInt = false := by decide
  exact this d (List.mem_of_getElem? hd)

example : ((construct Props.VemDofs.exMesh 2).bind fun M => marks Props.VemDofs.exMesh 2 M) =
    .ok [true, true, true, true, true, true, false, true, true] := by decide +kernel

/-- C146: `compress_map` numbers the unknowns without mark from zero on, in increasing order and without gaps. -/
theorem c146_compress (l : List Bool) :
    (∀ n : Nat, (compressMap l 0)[n]? = some none ↔ l[n]? = some true) ∧
    (∀ n a : Nat, (compressMap l 0)[n]? = some (some a) → a < l.count false) ∧
    (∀ a < l.count false, ∃ n : Nat, (compressMap l 0)[n]? = some (some a) ∧
      ∀ n' : Nat, (compressMap l 0)[n']? = some (some a) → n' = n) ∧
    (∀ n n' a a' : Nat, (compressMap l 0)[n]? = some (some a) → (compressMap l 0)[n']? = some (some a') → n < n' →
      a < a') := by
  refine ⟨fun n => cm_none, fun n a h => ?_, fun a ha => ?_, fun n n' a a' h h' hlt => ?_⟩
  · obtain ⟨h1, rfl⟩ := cm_some.1 h
    exact count_take_bound l h1
  · obtain ⟨n, h1, h2⟩ := count_surj l a ha
    exact ⟨n, cm_some.2 ⟨h1, h2⟩, fun n' h => cm_inj h (cm_some.2 ⟨h1, h2⟩)⟩
  · obtain ⟨h1, rfl⟩ := cm_some.1 h
    obtain ⟨h2, rfl⟩ := cm_some.1 h'
    exact count_take_lt l hlt h1

example : compressMap [true, false, true, false] 0 = [none, some 0, none, some 1] := rfl

/-- C146: whenever the marks pass the assertion and the inner blocks of the local systems are symmetric, non-singular
and factored, the linear system exists, its size is the number of unknowns that are not on the boundary, and a vector
solves it exactly if it is, expanded by zeros on the boundary, the outer part of a solution of the discrete problem. -/
theorem c146_system {K : Type} [CommRing K] (F : LDLT K) (m : Mesh) (hm : MeshOk m) (k : Nat) (hk : 1 ≤ k)
    (sys : Nat → Sys K) (hin : ∀ ce ∈ m.cells.zipIdx, Inner F (cellSize k ce.1) (sys ce.2)) {M : Mapper}
    (hM : construct m k = .ok M) {l : List Bool} (hl : marks m k M = .ok l) :
    ∃ S, system F m k sys = .ok S ∧ S.cm = compressMap l 0 ∧ S.size = l.count false ∧
      (∀ y, (∀ a < S.size, ∑ b ∈ Finset.range S.size, entry S.trips a b * y b = S.rhs a) ↔
        ∃ w, Solves m k sys (expand S.cm y) w) ∧
      ∀ u w, Solves m k sys u w → ∃ y, ∀ n < totdofs m k, expand S.cm y n = u n := by
  obtain ⟨l', h1, h2, h3⟩ := marks_eq hm hk hM
  have hll : l' = l := by
    rw [marks, h1, Outcome.bind_ok] at hl
    dsimp only at hl
    split at hl
    · exact Outcome.ok.inj hl
    · simp at hl
  subst hll
  obtain ⟨S, hS, hcm, hsz, hiff⟩ := solves_iff F hm hk sys hin hM h2 hl h3
  refine ⟨S, hS, hcm, hsz, hiff, fun u w hu => ?_⟩
  have hinv : ∀ a, ∃ n : Nat, a < S.size → (compressMap l' 0)[n]? = some (some a) := by
    intro a
    by_cases ha : a < S.size
    · obtain ⟨n, h4, h5⟩ := count_surj l' a (by rw [← hsz]; exact ha)
      exact ⟨n, fun _ => cm_some.2 ⟨h4, h5⟩⟩
    · exact ⟨0, fun h => absurd h ha⟩
  choose inv hinv using hinv
  refine ⟨fun a => u (inv a), fun n hn => ?_⟩
  have hlt : n < l'.length := by omega
  rw [expand, hcm, List.getD_eq_getElem?_getD]
  cases hx : l'[n] with
  | true =>
    have ht : l'[n]? = some true := by rw [List.getElem?_eq_getElem hlt, hx]
    rw [cm_none.2 ht]
    exact (hu.dirichlet n hn ((h3 n).1 ht)).symm
  | false =>
    have hf : l'[n]? = some false := by rw [List.getElem?_eq_getElem hlt, hx]
    have hs := cm_some.2 ⟨hf, rfl⟩
    rw [hs]
    have := hinv _ (by rw [hsz]; exact count_take_bound l' hf)
    show u (inv _) = u n
    rw [cm_inj this hs]

/-- C146: if the local matrices are those of C144 (symmetric, non-negative energy, without energy only the constants)
and every unknown is connected to the boundary through cells, the matrix of the linear system is non-singular. -/
theorem c146_solvable {K : Type} [Field K] [LinearOrder K] [IsStrictOrderedRing K] (F : LDLT K) (m : Mesh) (hm : MeshOk m)
    (k : Nat) (hk : 1 ≤ k) (sys : Nat → Sys K) (hen : ∀ ce ∈ m.cells.zipIdx, Energy (cellSize k ce.1) (sys ce.2))
    (hok : ∀ ce ∈ m.cells.zipIdx, F.success (innerBlock (cellSize k ce.1) (sys ce.2)) = true)
    (hr : ∀ n < totdofs m k, Reached m k n) {M : Mapper} (hM : construct m k = .ok M) {l : List Bool}
    (hl : marks m k M = .ok l) :
    ∃ S, system F m k sys = .ok S ∧ Verif.Hho.Nonsing S.size (entry S.trips) := by
  obtain ⟨l', h1, h2, h3⟩ := marks_eq hm hk hM
  have hll : l' = l := by
    rw [marks, h1, Outcome.bind_ok] at hl
    dsimp only at hl
    split at hl
    · exact Outcome.ok.inj hl
    · simp at hl
  subst hll
  have hcell : ∀ ce ∈ m.cells.zipIdx, ce.1 ∈ m.cells := fun ce hce => by
    have := List.mk_mem_zipIdx_iff_getElem?.1 hce
    exact List.mem_of_getElem? this
  have hin : ∀ ce ∈ m.cells.zipIdx, Inner F (cellSize k ce.1) (sys ce.2) := fun ce hce =>
    Inner.of_energy (cellSize_pos hm hk (hcell ce hce)) (hen ce hce) (hok ce hce)
  have hin0 : ∀ ce ∈ m.cells.zipIdx, Inner F (cellSize k ce.1) (noLoad sys ce.2) := fun ce hce =>
    ⟨(hin ce hce).symm, (hin ce hce).unit, (hin ce hce).success⟩
  obtain ⟨S, hS, hcm, hsz, hval⟩ := system_ok F hm hk sys
    (fun ce h => by have := (hin ce h).success; rwa [cellSize_eq] at this) hM h2 hl
  obtain ⟨S0, hS0, hcm0, hsz0, hval0⟩ := system_ok F hm hk (noLoad sys)
    (fun ce h => by have := (hin0 ce h).success; rwa [cellSize_eq] at this) hM h2 hl
  obtain ⟨S0', hS0', -, -, hiff⟩ := solves_iff F hm hk (noLoad sys) hin0 hM h2 hl h3
  have he : S0' = S0 := by rw [hS0] at hS0'; exact (Outcome.ok.inj hS0').symm
  subst he
  refine ⟨S, hS, fun y hy a ha => ?_⟩
  have hrow : ∀ a < S0'.size, ∑ b ∈ Finset.range S0'.size, entry S0'.trips a b * y b = S0'.rhs a := by
    intro a ha
    rw [← sub_eq_zero, hval0, hcm0, ← hcm]
    have h4 := hval a y
    have h5 := hval a (fun _ => 0)
    rw [hy a (by rw [hsz, ← hsz0]; exact ha)] at h4
    simp only [mul_zero, Finset.sum_const_zero] at h5
    have h6 : (m.cells.zipIdx.map fun ce => cellRow F m k S.cm y a ce.1 (sys ce.2)).sum =
        (m.cells.zipIdx.map fun ce => cellRow F m k S.cm (fun _ => 0) a ce.1 (sys ce.2)).sum +
        (m.cells.zipIdx.map fun ce => cellRow F m k S.cm y a ce.1 (noLoad sys ce.2)).sum := by
      rw [← List.sum_map_add]
      congr 1
      exact List.map_congr_left fun ce hce => cellRow_noLoad S.cm y a ce.1 sys ce.2 (hin ce hce)
    rw [← h4, ← h5] at h6
    exact (left_eq_add.1 h6)
  obtain ⟨w, hw⟩ := (hiff y).1 hrow
  obtain ⟨n, h7, h8⟩ := count_surj l' a (by rw [← hsz]; exact ha)
  have hn : n < totdofs m k := by rw [← h2]; exact (List.getElem?_eq_some_iff.1 h7).1
  have := zero_of_solves hm hk sys hen hw (hr n hn)
  rw [expand, hcm0, List.getD_eq_getElem?_getD, cm_some.2 ⟨h7, h8⟩] at this
  exact this

/-- A local system with six unknowns on the boundary and one inside: the energy is the sum of the squared differences
with the first unknown. -/
def starSys : Sys ℚ :=
  { nt := 1
    L := fun i j => if i = 0 then (if j = 0 then 6 else -1) else if j = 0 then -1 else if i = j then 1 else 0
    R := fun _ => 1 }

theorem star_form (x : Nat → ℚ) : ∑ i ∈ Finset.range 7, x i * ∑ j ∈ Finset.range 7, starSys.L i j * x j =
    (x 1 - x 0) ^ 2 + (x 2 - x 0) ^ 2 + (x 3 - x 0) ^ 2 + (x 4 - x 0) ^ 2 + (x 5 - x 0) ^ 2 + (x 6 - x 0) ^ 2 := by
  simp only [Finset.sum_range_succ, Finset.sum_range_zero, starSys]
  norm_num
  ring

theorem star_energy : Energy 6 starSys where
  symm := by
    intro i hi j hj
    change i < 7 at hi
    change j < 7 at hj
    simp only [starSys]
    split <;> split <;> first | rfl | (split <;> split <;> first | rfl | omega)
  nonneg x := by
    rw [show 6 + starSys.nt = 7 from rfl, star_form]
    positivity
  kernel := by
    refine ⟨fun _ => 1, fun _ _ => rfl, fun x hx => ⟨x 0, fun i hi => ?_⟩⟩
    rw [show 6 + starSys.nt = 7 from rfl, star_form] at hx
    change i < 7 at hi
    rw [mul_one]
    have h : ∀ j, 1 ≤ j → j < 7 → (x j - x 0) ^ 2 = 0 := by
      intro j h1 h7
      have a1 := sq_nonneg (x 1 - x 0)
      have a2 := sq_nonneg (x 2 - x 0)
      have a3 := sq_nonneg (x 3 - x 0)
      have a4 := sq_nonneg (x 4 - x 0)
      have a5 := sq_nonneg (x 5 - x 0)
      have a6 := sq_nonneg (x 6 - x 0)
      obtain rfl | rfl | rfl | rfl | rfl | rfl : j = 1 ∨ j = 2 ∨ j = 3 ∨ j = 4 ∨ j = 5 ∨ j = 6 := by omega
      all_goals linarith
    rcases Nat.eq_zero_or_pos i with rfl | h0
    · rfl
    · exact sub_eq_zero.1 (pow_eq_zero_iff (two_ne_zero) |>.1 (h i h0 hi))

/-- All unknowns of the quadrangle cut into two triangles are connected to its boundary. -/
theorem exMesh_reached : ∀ n < totdofs Props.VemDofs.exMesh 2, Reached Props.VemDofs.exMesh 2 n := by
  have h0 : Reached Props.VemDofs.exMesh 2 0 := .boundary
    ⟨0, 0, 1, exMesh_proper 0 _ rfl rfl, rfl, 0, by decide, by decide +kernel⟩
  have hc : ∀ c ∈ Props.VemDofs.exMesh.cells, cellSize 2 c = 6 ∧ numberAt Props.VemDofs.exMesh 2 c 0 = 0 := by
    decide +kernel
  have hr : ∀ c ∈ Props.VemDofs.exMesh.cells, ∀ j < 6, Reached Props.VemDofs.exMesh 2 (numberAt Props.VemDofs.exMesh 2 c j) := by
    intro c hcm j hj
    obtain ⟨h1, h2⟩ := hc c hcm
    exact .cell hcm (i := 0) (by omega) (by omega) (by rw [h2]; exact h0)
  have hn : ∀ n < 9, ∃ c ∈ Props.VemDofs.exMesh.cells, ∃ j < 6, numberAt Props.VemDofs.exMesh 2 c j = n := by
    decide +kernel
  intro n hlt
  obtain ⟨c, hcm, j, hj, rfl⟩ := hn n hlt
  exact hr c hcm j hj

example : ∃ (M : Mapper) (l : List Bool) (S : System ℚ), construct Props.VemDofs.exMesh 2 = .ok M ∧
    marks Props.VemDofs.exMesh 2 M = .ok l ∧ system (exactLDLT ℚ) Props.VemDofs.exMesh 2 (fun _ => starSys) = .ok S ∧
    Verif.Hho.Nonsing S.size (entry S.trips) := by
  obtain ⟨M, hM, h1, -⟩ := c146_guard _ Props.VemDofs.exMesh_ok 2 (by decide) exMesh_proper
  have hl : ((construct Props.VemDofs.exMesh 2).bind fun M => marks Props.VemDofs.exMesh 2 M) =
    .ok [true, true, true, true, true, true, false, true, true] := by decide +kernel
  rw [hM, Outcome.bind_ok] at hl
  have hsz : ∀ ce ∈ Props.VemDofs.exMesh.cells.zipIdx, cellSize 2 ce.1 = 6 := by decide +kernel
  have hsucc : (exactLDLT ℚ).success (innerBlock 6 starSys) = true := by
    apply exactLDLT_success
    have : symL (innerBlock 6 starSys) = (1 : Matrix (Fin starSys.nt) (Fin starSys.nt) ℚ) := by
      funext (i : Fin 1) (j : Fin 1)
      rw [Subsingleton.elim i 0, Subsingleton.elim j 0]
      rfl
    rw [this, Matrix.det_one]
    exact isUnit_one
  obtain ⟨S, hS, hn⟩ := c146_solvable (exactLDLT ℚ) _ Props.VemDofs.exMesh_ok 2 (by decide) (fun _ => starSys)
    (fun ce h => by rw [hsz ce h]; exact star_energy) (fun ce h => by rw [hsz ce h]; exact hsucc) exMesh_reached hM hl
  exact ⟨M, _, S, hM, hl, hS, hn⟩

/-- C146: the local systems of the virtual element method have the energy assumed in `c146_solvable`. -/
theorem c146_local {K : Type} [Field K] [LinearOrder K] [IsStrictOrderedRing K] {c : Vem.VCell K} {k : Nat} {F : Vem.LU K}
    {S : Hho.Solver K} {f : Vem.Pt K → K} {A : Hho.Mat K} {b : Nat → K} (h : Vem.computeLocal F S c k f = .ok (A, b))
    (E : Spec.Vem.Exact c k) (hd : Spec.Vem.Definite E)
    (hp : ∀ u, 0 ≤ E.IT fun x =>
      Hho.dot 2 (Spec.Hho.evalGrad (c.basis k) u x) (Spec.Hho.evalGrad (c.basis k) u x))
    (hs : 0 < c.sides.length) : Energy (c.sides.length * k) ⟨Vem.lbs k, A, b⟩ := by
  have hk1 := (Vem.local_eq h).1
  have hk : k ≠ 0 := by omega
  have hform : ∀ x : Nat → K, (∑ i ∈ Finset.range (c.sides.length * k + Vem.lbs k), x i *
      ∑ j ∈ Finset.range (c.sides.length * k + Vem.lbs k), A i j * x j) = Spec.Hho.form (c.ndof k) A x x := fun _ => rfl
  refine ⟨Props.Vem.c144_symmetric h, fun x => ?_, ?_⟩
  · exact (Props.Vem.c144_kernel h E hd hp hs x).1
  · refine ⟨fun i => if i < c.sides.length * k then 1 else
      E.IT (fun x => (c.basis (k - 2)).fn x (i - c.sides.length * k)) / c.area, fun i hi => if_pos hi, fun x hx => ?_⟩
    obtain ⟨a, ha⟩ := (Props.Vem.c144_kernel h E hd hp hs x).2.1 hx
    refine ⟨a, fun i hi => ?_⟩
    dsimp only at hi ⊢
    by_cases hi' : i < c.sides.length * k
    · rw [if_pos hi', mul_one]
      have h1 : i / k < c.sides.length := by rw [Nat.div_lt_iff_lt_mul (by omega)]; exact hi'
      have h2 : i % k < k := Nat.mod_lt _ (by omega)
      have h3 := E.lob_len _ (List.getElem_mem h1)
      have h4 : i % k < (c.sides[i / k].lobatto (2 * k - 1)).length := by omega
      have := ha.1 (i / k) _ (i % k) _ (List.getElem?_eq_getElem h1) h2 (List.getElem?_eq_getElem h4)
      rwa [Nat.mul_comm, Nat.div_add_mod] at this
    · rw [if_neg hi']
      by_cases h1 : k = 1
      · rw [Vem.lbs, if_pos h1] at hi; omega
      · have hsz : i - c.sides.length * k < (c.basis (k - 2)).size := by
          rw [Vem.lbs, if_neg h1] at hi
          show _ < Util.scalarBasisSize (k - 2) 2
          omega
        have := ha.2 (by omega) _ hsz
        rw [show c.sides.length * k + (i - c.sides.length * k) = i by omega] at this
        rw [this]
        have hl : E.IT (fun x => (c.basis (k - 2)).fn x (i - c.sides.length * k) * a) =
            a * E.IT (fun x => (c.basis (k - 2)).fn x (i - c.sides.length * k)) := by
          rw [← smul_eq_mul a, ← map_smul]
          congr 1
          funext x
          exact mul_comm _ _
        rw [hl, mul_div_assoc]

/-- Two triangles with a common corner. -/
def bowTie : Mesh :=
  { npts := 5
    faces := [[0, 1], [0, 2], [1, 2], [2, 3], [2, 4], [3, 4]]
    cells := [.tri 0 1 2, .tri 2 3 4]
    binfo := List.replicate 6 (.mk2 0 true) }

/-- A quadrangle cut into two triangles of different subdomains, the interface being marked. -/
def interfaceMesh : Mesh :=
  { Props.VemDofs.exMesh with binfo := [.mk2 0 true, .mk2 1 true, ⟨4, 4, true, true⟩, .mk2 2 true, .mk2 3 true] }

theorem bowTie_ok : MeshOk bowTie where
  sorted := by decide
  ends := by
    intro f hf
    simp only [bowTie, List.mem_cons, List.not_mem_nil, or_false] at hf
    rcases hf with rfl | rfl | rfl | rfl | rfl | rfl <;> exact ⟨_, _, rfl, by decide, by decide, by decide⟩
  once := by
    intro a b h
    simp only [bowTie, List.mem_cons, List.cons.injEq, and_true, List.not_mem_nil, or_false] at h ⊢
    omega
  binfo := rfl
  cells := by
    intro c hc
    simp only [bowTie, List.mem_cons, List.not_mem_nil, or_false] at hc
    rcases hc with rfl | rfl <;> exact ⟨by decide, by decide, by decide +kernel, by decide⟩

/-- C146 (violated): the number of marks is compared with `degree * nbndfcs`, which is wrong if the boundary touches
itself in a point, and if interfaces between subdomains are marked, which `bnd_to_global` leaves out. -/
theorem c146_guard_violated :
    (∃ M, construct bowTie 2 = .ok M ∧ (marks bowTie 2 M).IsUB) ∧
    (∃ M, construct interfaceMesh 2 = .ok M ∧ (marks interfaceMesh 2 M).IsUB) ∧
    MeshOk bowTie ∧ MeshOk interfaceMesh := by
  have hi : MeshOk interfaceMesh := by
    have := Props.VemDofs.exMesh_ok
    exact ⟨this.sorted, this.ends, this.once, rfl, this.cells⟩
  have h1 : ((construct bowTie 2).bind fun M => marks bowTie 2 M) = .ub "assert(dirdofs == dirdofs_chk)" := by
    decide +kernel
  have h2 : ((construct interfaceMesh 2).bind fun M => marks interfaceMesh 2 M) = .ub "assert(dirdofs == dirdofs_chk)" := by
    decide +kernel
  refine ⟨⟨_, construct_ok bowTie_ok (by decide), ?_⟩, ⟨_, construct_ok hi (by decide), ?_⟩, bowTie_ok, hi⟩
  · rw [construct_ok bowTie_ok (by decide), Outcome.bind_ok] at h1
    rw [h1]; trivial
  · rw [construct_ok hi (by decide), Outcome.bind_ok] at h2
    rw [h2]; trivial

end Verif.Props.VemSystem
