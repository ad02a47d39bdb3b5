import Mathlib.Tactic.Ring
import Mathlib.Tactic.Linarith
import Mathlib.Tactic.LinearCombination
import Verif.Lemmas.Nitsche
import Verif.Lemmas.HhoDegrees
import Verif.Spec.Heat
/-!
Lemmas for the heat equation: the assembled form, the load, the product with the mass matrices.
-/
namespace Verif.Lemmas.Heat
open Finset Verif.Hho Verif.Spec.Hho Verif.Lemmas.Hho Verif.Nitsche Verif.Spec.Nitsche Verif.Lemmas.Nitsche Verif.Heat
  Verif.Spec.Heat LocalMatrix

variable {K P : Type} [Field K]

theorem sum_list_range (n : Nat) (f : Nat → K) : ((List.range n).map f).sum = ∑ i ∈ range n, f i := by
  induction n with
  | zero => rfl
  | succ n ih => rw [List.range_succ, List.map_append, List.sum_append, ih, sum_range_succ]; simp

theorem sum_flatMap {α β : Type} (l : List α) (f : α → List β) (g : β → K) :
    ((l.flatMap f).map g).sum = (l.map fun a => ((f a).map g).sum).sum := by
  induction l with
  | nil => rfl
  | cons a l ih => simp [ih]

theorem form_toMat {N : Nat} (v u : Nat → K) (t : List (Nat × Nat × K)) (ht : ∀ x ∈ t, x.1 < N ∧ x.2.1 < N) :
    form N (Assembly.toMat t) v u = (t.map fun x => v x.1 * (x.2.2 * u x.2.1)).sum := by
  induction t with
  | nil => simp [form, app, Assembly.toMat]
  | cons x t ih =>
    obtain ⟨a, b, z⟩ := x
    obtain ⟨ha, hb⟩ := ht _ List.mem_cons_self
    have e : ∀ i j, Assembly.toMat ((a, b, z) :: t) i j =
        (if i = a then if j = b then z else 0 else 0) + Assembly.toMat t i j := by
      intro i j
      unfold Assembly.toMat
      by_cases h1 : i = a <;> by_cases h2 : j = b
      · subst h1 h2; simp
      · subst h1; simp [h2, Ne.symm h2]
      · simp [h1, Ne.symm h1]
      · simp [h1, Ne.symm h1]
    have : form N (Assembly.toMat ((a, b, z) :: t)) v u =
        form N (fun i j => if i = a then if j = b then z else 0 else 0) v u + form N (Assembly.toMat t) v u := by
      rw [← form_addMat]
      congr 1
      funext i j
      exact e i j
    rw [this, ih fun x hx => ht x (List.mem_cons_of_mem _ hx), List.map_cons, List.sum_cons]
    congr 1
    simp only [form, app]
    rw [sum_eq_single a]
    · rw [sum_eq_single b]
      · simp
      · intro j _ hj; simp [hj]
      · intro h; exact absurd (mem_range.2 hb) h
    · intro i _ hi
      simp [hi]
    · intro h; exact absurd (mem_range.2 ha) h

variable {S : Solver K} {c : Cfg P K}

theorem onCell_l2g (ci : Nat) (v : Nat → K) (i : Nat) : onCell c ci v i = v (l2g c ci (c.cell ci) i) := by
  unfold onCell l2g
  split_ifs
  · rw [Nat.mul_comm]
  · rw [Nat.mul_comm c.fbs]

theorem l2g_lt (hw : WellFormed c) {ci : Nat} (hc : ci < c.nc) {i : Nat} (hi : i < localSize c (c.cell ci)) :
    l2g c ci (c.cell ci) i < size c := by
  unfold l2g size
  unfold localSize at hi
  split_ifs with h
  · have : (ci + 1) * c.cbs ≤ c.nc * c.cbs := Nat.mul_le_mul_right _ hc
    rw [Nat.mul_comm c.cbs]
    rw [Nat.succ_mul] at this
    omega
  · have h1 : i - c.cbs < (c.cell ci).faces.length * c.fbs := by omega
    have hf : 0 < c.fbs := by
      rcases Nat.eq_zero_or_pos c.fbs with h0 | h0
      · rw [h0, Nat.mul_zero] at h1; omega
      · exact h0
    have h2 : (i - c.cbs) / c.fbs < (c.cell ci).ids.length := by
      rw [hw.len ci hc]
      exact (Nat.div_lt_iff_lt_mul hf).2 h1
    have h3 : (c.cell ci).ids.getD ((i - c.cbs) / c.fbs) 0 < c.nf := by
      rw [List.getD_eq_getElem?_getD, List.getElem?_eq_getElem h2, Option.getD_some]
      exact hw.ids ci hc _ (List.getElem_mem h2)
    have h4 := Nat.mod_lt (i - c.cbs) hf
    have h5 : ((c.cell ci).ids.getD ((i - c.cbs) / c.fbs) 0 + 1) * c.fbs ≤ c.nf * c.fbs := Nat.mul_le_mul_right _ h3
    rw [Nat.succ_mul] at h5
    rw [Nat.mul_comm c.fbs]
    omega

/-- The form of the mass matrix of a cell. -/
theorem form_cellMass (hw : WellFormed c) {ci : Nat} (hc : ci < c.nc) (x y : Nat → K) :
    ∑ i ∈ range c.cbs, x i * app c.cbs (cellMass c (c.cell ci)) y i =
      quad ((c.cell ci).elem.integrate (2 * c.k)) fun p =>
        evalFn ((c.cell ci).elem.basis c.k) x p * evalFn ((c.cell ci).elem.basis c.k) y p := by
  unfold cellMass mass evalFn
  rw [hw.cell ci hc]
  exact sum_accum ..

theorem seg_onCell {ci : Nat} (v : Nat → K) {i : Nat} (hi : i < c.cbs) : seg 0 (onCell c ci v) i = seg (c.cbs * ci) v i := by
  simp [seg, onCell, hi]

theorem form_localLhs (hw : WellFormed c) {ci : Nat} (hc : ci < c.nc) (v u : Nat → K) :
    form (localSize c (c.cell ci)) (localLhs S c (c.cell ci)) (onCell c ci v) (onCell c ci u) =
      quad ((c.cell ci).elem.integrate (2 * c.k)) (fun p =>
        evalFn ((c.cell ci).elem.basis c.k) (seg (c.cbs * ci) v) p * evalFn ((c.cell ci).elem.basis c.k) (seg (c.cbs * ci) u) p) +
      c.dt * form (localSize c (c.cell ci)) (weak S c (c.cell ci)).1 (onCell c ci v) (onCell c ci u) := by
  unfold localLhs
  rw [form_addBlock (by unfold localSize; omega) (by unfold localSize; omega), ← form_cellMass hw hc, add_comm]
  congr 1
  · refine sum_congr rfl fun i hi => ?_
    rw [seg_onCell v (mem_range.1 hi)]
    congr 1
    exact app_congr (fun _ _ => rfl) fun j hj => seg_onCell u hj
  · simp only [form, app, mul_sum]
    exact sum_congr rfl fun i _ => sum_congr rfl fun j _ => by ring

/-- The assembled form. -/
theorem form_lhs (hw : WellFormed c) (v u : Nat → K) :
    form (size c) (lhs S c) v u = l2 c v u + c.dt * stiff S c v u := by
  unfold lhs
  rw [form_toMat]
  · rw [sum_flatMap, sum_list_range]
    unfold l2 stiff
    rw [mul_sum, ← sum_add_distrib]
    refine sum_congr rfl fun ci hci => ?_
    rw [← form_localLhs hw (mem_range.1 hci)]
    unfold cellTriplets
    rw [sum_flatMap, sum_list_range]
    unfold form app
    refine sum_congr rfl fun i _ => ?_
    rw [List.map_map, sum_list_range, mul_sum]
    refine sum_congr rfl fun j _ => ?_
    rw [onCell_l2g, onCell_l2g]
    rfl
  · intro x hx
    obtain ⟨ci, hci, hx⟩ := List.mem_flatMap.1 hx
    obtain ⟨i, hi, hx⟩ := List.mem_flatMap.1 hx
    obtain ⟨j, hj, rfl⟩ := List.mem_map.1 hx
    exact ⟨l2g_lt hw (List.mem_range.1 hci) (List.mem_range.1 hi), l2g_lt hw (List.mem_range.1 hci) (List.mem_range.1 hj)⟩

theorem load_addAt {N a : Nat} (ha : a < N) (b v : Nat → K) (z : K) :
    load N (fun r => b r + if r = a then z else 0) v = load N b v + z * v a := by
  unfold load
  simp only [add_mul, sum_add_distrib, ite_mul, zero_mul]
  congr 1
  rw [sum_ite_eq' (range N) a]
  simp [ha]

/-- The assembled load. -/
theorem load_rhs (hw : WellFormed c) (v : Nat → K) : load (size c) (rhs S c) v = source S c v := by
  have h1 : ∀ (ci : Nat), ci < c.nc → ∀ (m : Nat), m ≤ localSize c (c.cell ci) → ∀ b : Nat → K,
      load (size c) ((List.range m).foldl (fun b i => fun r =>
        b r + if r = l2g c ci (c.cell ci) i then (weak S c (c.cell ci)).2 i else 0) b) v =
      load (size c) b v + ∑ i ∈ range m, (weak S c (c.cell ci)).2 i * onCell c ci v i := by
    intro ci hc m hm b
    induction m with
    | zero => simp
    | succ m ih =>
      rw [List.range_succ, List.foldl_append, List.foldl_cons, List.foldl_nil, load_addAt (l2g_lt hw hc (by omega)),
        ih (by omega), sum_range_succ, onCell_l2g, add_assoc]
  have h2 : ∀ m, m ≤ c.nc → load (size c) ((List.range m).foldl (fun b ci =>
      (List.range (localSize c (c.cell ci))).foldl (fun b i => fun r =>
        b r + if r = l2g c ci (c.cell ci) i then (weak S c (c.cell ci)).2 i else 0) b) fun _ => 0) v =
      ∑ ci ∈ range m, load (localSize c (c.cell ci)) (weak S c (c.cell ci)).2 (onCell c ci v) := by
    intro m hm
    induction m with
    | zero => simp [load]
    | succ m ih =>
      rw [List.range_succ, List.foldl_append, List.foldl_cons, List.foldl_nil, h1 m (by omega) _ le_rfl, ih (by omega),
        sum_range_succ]
      rfl
  exact h2 c.nc le_rfl

theorem massAll_apply (x : Nat → Nat → K) {ci i : Nat} (hc : ci < c.nc) (hi : i < c.cbs) :
    massAll c x (ci * c.cbs + i) = app c.cbs (cellMass c (c.cell ci)) (x ci) i := by
  have h : ∀ m, m ≤ c.nc → ci < m → ((List.range m).foldl (fun v ci => setSegment v (ci * c.cbs) c.cbs fun i =>
      ∑ j ∈ range c.cbs, cellMass c (c.cell ci) i j * x ci j) fun _ => 0) (ci * c.cbs + i) =
      app c.cbs (cellMass c (c.cell ci)) (x ci) i := by
    intro m
    induction m with
    | zero => intro _ h; omega
    | succ m ih =>
      intro hm hcm
      rw [List.range_succ, List.foldl_append, List.foldl_cons, List.foldl_nil]
      rcases Nat.lt_succ_iff_lt_or_eq.1 hcm with h | h
      · rw [setSegment, if_neg]
        · exact ih (by omega) h
        · have : (ci + 1) * c.cbs ≤ m * c.cbs := Nat.mul_le_mul_right _ h
          rw [Nat.succ_mul] at this
          omega
      · subst h
        rw [setSegment, if_pos ⟨by omega, by omega⟩, Nat.add_sub_cancel_left]
        rfl
  exact h c.nc le_rfl hc

theorem massAll_sum (hw : WellFormed c) (x : Nat → Nat → K) (v : Nat → K) :
    ∑ r ∈ range (c.cbs * c.nc), massAll c x r * v r = ∑ ci ∈ range c.nc,
      quad ((c.cell ci).elem.integrate (2 * c.k)) fun p =>
        evalFn ((c.cell ci).elem.basis c.k) (seg (c.cbs * ci) v) p * evalFn ((c.cell ci).elem.basis c.k) (x ci) p := by
  rw [Nat.mul_comm, Verif.Lemmas.HhoDegrees.sum_range_blocks]
  refine sum_congr rfl fun ci hci => ?_
  rw [← form_cellMass hw (mem_range.1 hci)]
  refine sum_congr rfl fun i hi => ?_
  rw [massAll_apply x (mem_range.1 hci) (mem_range.1 hi), mul_comm, seg, Nat.mul_comm ci]

theorem massAll_carries (hw : WellFormed c) {x : Nat → Nat → K} {w : Nat → K}
    (h : ∀ ci < c.nc, ∀ j < c.cbs, x ci j = w (c.cbs * ci + j)) : Carries c (massAll c x) w := by
  intro v
  rw [massAll_sum hw]
  refine sum_congr rfl fun ci hci => quad_congr fun q _ => ?_
  congr 1
  unfold evalFn
  rw [hw.cell ci (mem_range.1 hci)]
  exact sum_congr rfl fun j hj => by rw [h ci (mem_range.1 hci) j (mem_range.1 hj)]; rfl

theorem errStep_eq (hw : WellFormed c) (t : K) (u : Nat → K) (err : K) :
    errStep S c t u err = err + c.dt * gradDist c u fun ci => projectElem S (c.cell ci).elem c.k (c.sol t) 0 := by
  have h1 : ∀ (T : HCell P K) (diff : Nat → K) (qs : List (QP P K)) (err : K),
      qs.foldl (fun err q =>
        err + c.dt * q.w * dot c.d (fun e => ∑ i ∈ range c.cbs, diff i * (T.elem.basis c.k).grad q.pt i e)
          (fun e => ∑ i ∈ range c.cbs, diff i * (T.elem.basis c.k).grad q.pt i e)) err =
      err + c.dt * quad qs fun x => dot c.d (fun e => ∑ i ∈ range c.cbs, diff i * (T.elem.basis c.k).grad x i e)
          (fun e => ∑ i ∈ range c.cbs, diff i * (T.elem.basis c.k).grad x i e) := by
    intro T diff qs
    induction qs with
    | nil => intro err; simp [quad]
    | cons q qs ih => intro err; rw [List.foldl_cons, ih, quad_cons]; ring
  unfold errStep
  dsimp only
  simp only [h1]
  have h2 : ∀ (a : Nat → K) (m : Nat) (err : K), (List.range m).foldl (fun err ci => err + c.dt * a ci) err =
      err + c.dt * ∑ ci ∈ range m, a ci := by
    intro a m err
    induction m with
    | zero => simp
    | succ m ih => rw [List.range_succ, List.foldl_append, ih, List.foldl_cons, List.foldl_nil, sum_range_succ]; ring
  rw [h2]
  congr 2
  refine sum_congr rfl fun ci hci => quad_congr fun q _ => ?_
  unfold evalGrad
  rw [hw.cell ci (mem_range.1 hci)]
  simp only [Nat.mul_comm ci]

theorem l2_comm (v u : Nat → K) : l2 c v u = l2 c u v :=
  sum_congr rfl fun _ _ => quad_congr fun _ _ => mul_comm _ _

theorem evalFn_sub (b : Basis P K) (x y : Nat → K) (p : P) : evalFn b (fun i => x i - y i) p = evalFn b x p - evalFn b y p := by
  simp only [evalFn, sub_mul, sum_sub_distrib]

theorem l2_sub_left (v w u : Nat → K) : l2 c (fun r => v r - w r) u = l2 c v u - l2 c w u := by
  unfold l2
  rw [← sum_sub_distrib]
  refine sum_congr rfl fun ci _ => ?_
  rw [← quad_sub]
  refine quad_congr fun q _ => ?_
  have : seg (c.cbs * ci) (fun r => v r - w r) = fun i => seg (c.cbs * ci) v i - seg (c.cbs * ci) w i := rfl
  rw [this, evalFn_sub]
  ring

/-- The projection of a multiple. -/
theorem project_smul {e : Elem P K} {k : Nat} (hm : Nonsing (e.basis k).size (mass e k (e.basis k))) (a : K) (s : P → K)
    {j : Nat} (hj : j < (e.basis k).size) :
    projectElem S e k (fun x => a * s x) 0 j = a * projectElem S e k s 0 j := by
  refine solve_unique hm (x := projectElem S e k (fun x => a * s x) 0) (y := fun j => a * projectElem S e k s 0 j)
    (fun i hi => ?_) j hj
  have h1 := S.solves _ _ (rhsOf e k 0 (e.basis k) fun x => a * s x) (mass_sym e k _ (e.basis k)) hm i hi
  have h2 := S.solves _ _ (rhsOf e k 0 (e.basis k) s) (mass_sym e k _ (e.basis k)) hm i hi
  refine h1.trans ?_
  have : app (e.basis k).size (mass e k (e.basis k)) (fun j => a * projectElem S e k s 0 j) i =
      a * rhsOf e k 0 (e.basis k) s i := by
    rw [← h2, mul_sum]
    exact sum_congr rfl fun j _ => by unfold projectElem; ring
  rw [this, rhsOf_eq, rhsOf_eq, ← quad_mul]
  exact quad_congr fun q _ => by ring

end Verif.Lemmas.Heat
