import Verif.Spec.DgSolver
import Verif.Lemmas.HhoSolverRows
import Verif.Lemmas.AssemblyBasic
import Verif.Props.Neighbours
/-!
Helper lemmas for the discontinuous Galerkin solver: the cells of a face, the forms of the calls to the assembler.
-/
namespace Verif.Lemmas.Dg
open Finset Verif.Hho Verif.DgSolver Verif.Spec.Hho Verif.Spec.Dg Verif.Lemmas.Hho LocalMatrix Neighbours
open Verif.Lemmas.HhoSolver (form_unit app_unit unitVec)

variable {K P : Type} [Field K]

/-! ### Cells of a face -/

omit [Field K] in
theorem mem_sides {m : Mesh P K} {f : Nat} {s : Nat × (Nat → K)} :
    s ∈ sides m f ↔ s.1 < m.ncells ∧ (f, s.2) ∈ (m.cell s.1).fcs := by
  simp only [sides, List.mem_flatMap, List.mem_range, List.mem_map, List.mem_filter, decide_eq_true_eq]
  constructor
  · rintro ⟨a, ha, q, ⟨hq, rfl⟩, rfl⟩
    exact ⟨ha, hq⟩
  · rintro ⟨ha, hq⟩
    exact ⟨s.1, ha, _, ⟨hq, rfl⟩, rfl⟩

omit [Field K] in
theorem filter_length (f : Nat) (l : List (Nat × (Nat → K))) :
    (l.filter fun q => q.1 = f).length = (l.map Prod.fst).count f := by
  induction l with
  | nil => rfl
  | cons q l ih =>
    by_cases h : q.1 = f
    · simp [h, ih]
    · simp [h, ih]

omit [Field K] in
theorem sides_length (m : Mesh P K) (f : Nat) :
    (sides m f).length = Verif.Spec.occurrences m.topo.cells m.topo.facesOf f := by
  unfold sides Verif.Spec.occurrences Mesh.topo
  rw [List.length_flatMap, List.count_flatMap]
  congr 1
  refine List.map_congr_left fun a _ => ?_
  simp [filter_length, Function.comp]

theorem sides_nodup {d k cbs : Nat} {m : Mesh P K} (h : MeshOk d k cbs m) (f : Nat) :
    ((sides m f).map Prod.fst).Nodup := by
  unfold sides
  rw [List.map_flatMap, List.nodup_flatMap]
  constructor
  · intro a ha
    have hn := h.nodup a (List.mem_range.1 ha)
    have hl : ((m.cell a).fcs.filter fun q => q.1 = f).length ≤ 1 := by
      rw [filter_length]; exact List.nodup_iff_count_le_one.1 hn f
    rw [List.map_map]
    refine List.nodup_iff_count_le_one.2 fun x => ?_
    refine (List.count_le_length).trans ?_
    simpa using hl
  · refine List.Pairwise.imp ?_ List.nodup_range
    intro a b hab x hx hy
    simp only [List.map_map, List.mem_map, Function.comp] at hx hy
    obtain ⟨_, _, rfl⟩ := hx
    obtain ⟨_, _, h⟩ := hy
    exact hab h.symm

theorem sorted_range (n : Nat) : Verif.Spec.StrictSorted (List.range n) := by
  rw [Lookup.strictSorted_iff_pairwise]
  exact List.pairwise_lt_range

theorem eq_pair {α : Type} {l : List α} (hl : l.length ≤ 2) {s t : α} (hs : s ∈ l) (ht : t ∈ l) (hne : s ≠ t) :
    l = [s, t] ∨ l = [t, s] := by
  match l, hl with
  | [], _ => cases hs
  | [x], _ =>
    simp only [List.mem_singleton] at hs ht
    exact (hne (hs.trans ht.symm)).elim
  | [x, y], _ =>
    simp only [List.mem_cons, List.not_mem_nil, or_false] at hs ht
    rcases hs with rfl | rfl <;> rcases ht with rfl | rfl <;> simp_all

theorem eq_single {α : Type} {l : List (Nat × α)} (hn : (l.map Prod.fst).Nodup) {s : Nat × α} (hs : s ∈ l)
    (h : ∀ t ∈ l, t.1 = s.1) : l = [s] := by
  match l with
  | [] => cases hs
  | [x] => simp only [List.mem_singleton] at hs; rw [hs]
  | x :: y :: r =>
    have h1 := h x List.mem_cons_self
    have h2 := h y (List.mem_cons_of_mem _ List.mem_cons_self)
    simp [h1, h2] at hn

theorem connectivity_ok {d k cbs : Nat} {m : Mesh P K} (h : MeshOk d k cbs m) : ∃ o, connectivity m.topo = .ok o := by
  obtain ⟨o, ho, _⟩ := (c16_compute m.topo (sorted_range _)).1 ⟨by
    intro c hc f hf
    obtain ⟨q, hq, rfl⟩ := List.mem_map.1 hf
    exact List.mem_range.2 (h.range c (List.mem_range.1 hc) q hq), fun f => by
      rw [← sides_length]; exact h.two f⟩
  exact ⟨o, ho⟩

theorem neighbour_mem {m : MeshTopo.Mesh Nat Nat} {o : List Owner} {c f b : Nat} {x : Bool}
    (hv : neighbourVia m o c f = .ok (b, x)) : b ∈ m.cells := by
  unfold neighbourVia at hv
  cases h1 : Lookup.offset m.cells c with
  | ok i =>
    cases h2 : Lookup.offset m.faces f with
    | ok j =>
      simp only [h1, h2, Outcome.bind_ok] at hv
      split at hv
      · cases hv
      · split at hv
        · cases hv
        · rename_i p _
          generalize hp : (if (p.1.isSome && p.1 != some i) = true then (p.2, p.1) else p) = p' at hv
          by_cases h3 : p'.1 = some i
          · rw [if_pos h3] at hv
            cases h4 : p'.2 with
            | none =>
              rw [h4] at hv
              cases h5 : m.cells[0]? with
              | none => simp [h5] at hv
              | some c0 =>
                simp only [h5, Outcome.ok.injEq, Prod.mk.injEq] at hv
                exact hv.1 ▸ List.mem_of_getElem? h5
            | some j =>
              rw [h4] at hv
              cases h5 : m.cells[j]? with
              | none => simp [h5] at hv
              | some c0 =>
                simp only [h5, Outcome.ok.injEq, Prod.mk.injEq] at hv
                exact hv.1 ▸ List.mem_of_getElem? h5
          · rw [if_neg h3] at hv; cases hv
    | _ =>
      simp only [h1, h2, Outcome.bind] at hv
      split at hv <;> cases hv
  | _ =>
    simp only [h1, Outcome.bind] at hv
    split at hv <;> cases hv

/-- The neighbour found through a face is the other cell of the face, if there is one. -/
theorem neighbour_sides {d k cbs : Nat} {m : Mesh P K} (h : MeshOk d k cbs m) {o : List Owner}
    (ho : connectivity m.topo = .ok o) {a : Nat} (ha : a < m.ncells) {q : Nat × (Nat → K)} (hq : q ∈ (m.cell a).fcs) :
    (∃ b n, neighbourVia m.topo o a q.1 = .ok (b, true) ∧ b < m.ncells ∧ b ≠ a ∧ (q.1, n) ∈ (m.cell b).fcs ∧
      (sides m q.1 = [(a, q.2), (b, n)] ∨ sides m q.1 = [(b, n), (a, q.2)])) ∨
    (∃ b, neighbourVia m.topo o a q.1 = .ok (b, false) ∧ b < m.ncells ∧ sides m q.1 = [(a, q.2)]) := by
  have hs : (a, q.2) ∈ sides m q.1 := mem_sides.2 ⟨ha, hq⟩
  rcases c16_neighbour m.topo (sorted_range _) (sorted_range _) (fun c hc => h.nodup c (List.mem_range.1 hc)) o ho a
    (List.mem_range.2 ha) q.1 (List.mem_map_of_mem hq) with ⟨b, hv, ⟨hb, hne, hf⟩, _⟩ | ⟨⟨b, hv⟩, hno⟩
  · obtain ⟨r, hr, hrq⟩ := List.mem_map.1 hf
    have hr' : (q.1, r.2) ∈ (m.cell b).fcs := by rw [← hrq]; exact hr
    exact .inl ⟨b, r.2, hv, List.mem_range.1 hb, hne, hr', eq_pair (h.two _) hs (mem_sides.2 ⟨List.mem_range.1 hb, hr'⟩)
      fun e => hne (congrArg Prod.fst e).symm⟩
  · refine .inr ⟨b, hv, ?_, eq_single (sides_nodup h _) hs fun t ht => ?_⟩
    · exact List.mem_range.1 (neighbour_mem hv)
    · by_contra hne
      obtain ⟨ht1, ht2⟩ := mem_sides.1 ht
      exact hno t.1 ⟨List.mem_range.2 ht1, hne, List.mem_map.2 ⟨_, ht2, rfl⟩⟩

/-! ### The terms of a pair of cells of a face -/

/-- The face matrix of cells `s` (rows) and `t` (columns) applied to a pair of broken polynomials. -/
def pair (d k : Nat) (eta : K) (m : Mesh P K) (f : Nat) (Y X : Nat → Nat → K) (s t : Nat × (Nat → K)) : K :=
  quad ((m.face f).integrate (2 * k)) fun x =>
    eta / (m.face f).diam * dot d s.2 t.2 * val k m Y s.1 x * val k m X t.1 x -
      1 / ((sides m f).length : K) * val k m Y s.1 x * dot d (grd k m X t.1 x) s.2 -
      1 / ((sides m f).length : K) * dot d (grd k m Y s.1 x) t.2 * val k m X t.1 x

theorem quad_listSum {ι : Type} (qs : List (QP P K)) (l : List ι) (g : ι → P → K) :
    quad qs (fun x => (l.map fun i => g i x).sum) = (l.map fun i => quad qs (g i)).sum := by
  induction l with
  | nil => simp [quad]
  | cons i l ih => simp only [List.map_cons, List.sum_cons, quad_add, ih]

theorem list_mul {ι : Type} (a : K) (l : List ι) (g : ι → K) : (l.map g).sum * a = (l.map fun i => g i * a).sum := by
  induction l with
  | nil => simp
  | cons i l ih => simp only [List.map_cons, List.sum_cons, add_mul, ih]

theorem dot_list_left {ι : Type} (d : Nat) (l : List ι) (g : ι → Nat → K) (b : Nat → K) :
    dot d (fun c => (l.map fun i => g i c).sum) b = (l.map fun i => dot d (g i) b).sum := by
  induction l with
  | nil => simp [dot]
  | cons i l ih =>
    simp only [List.map_cons, List.sum_cons, ← ih]
    simp only [dot, add_mul, sum_add_distrib]

theorem dot_list_right {ι : Type} (d : Nat) (l : List ι) (g : ι → Nat → K) (a : Nat → K) :
    dot d a (fun c => (l.map fun i => g i c).sum) = (l.map fun i => dot d a (g i)).sum := by
  rw [dot_comm, dot_list_left]
  exact congrArg List.sum (List.map_congr_left fun i _ => dot_comm ..)

theorem dot_smul_left (d : Nat) (t : K) (a b : Nat → K) : dot d (fun c => t * a c) b = t * dot d a b := by
  simp only [dot, mul_sum, mul_assoc]

theorem dot_smul_right (d : Nat) (t : K) (a b : Nat → K) : dot d a (fun c => t * b c) = t * dot d a b := by
  rw [dot_comm, dot_smul_left, dot_comm]

theorem list_sub {ι : Type} (l : List ι) (g g' : ι → K) :
    (l.map fun i => g i - g' i).sum = (l.map g).sum - (l.map g').sum := by
  induction l with
  | nil => simp
  | cons i l ih => simp only [List.map_cons, List.sum_cons, ih]; ring

theorem list_smul {ι : Type} (a : K) (l : List ι) (g : ι → K) : (l.map fun i => a * g i).sum = a * (l.map g).sum := by
  rw [mul_comm, list_mul]; simp only [mul_comm]

theorem dot_jump_right (d k : Nat) (m : Mesh P K) (f : Nat) (X : Nat → Nat → K) (x : P) (b : Nat → K) :
    dot d b (jump k m f X x) = ((sides m f).map fun t => dot d b t.2 * val k m X t.1 x).sum := by
  unfold jump
  rw [dot_list_right]
  exact congrArg List.sum (List.map_congr_left fun t _ => by rw [dot_smul_right, mul_comm])

theorem dot_avg_right (d k : Nat) (m : Mesh P K) (f : Nat) (X : Nat → Nat → K) (x : P) (b : Nat → K) :
    dot d b (avg k m f X x) =
      ((sides m f).map fun t => 1 / ((sides m f).length : K) * dot d (grd k m X t.1 x) b).sum := by
  have e : avg k m f X x = fun c => 1 / ((sides m f).length : K) * ((sides m f).map fun s => grd k m X s.1 x c).sum := by
    funext c; unfold avg; ring
  rw [e, dot_smul_right, dot_list_right, list_smul]
  simp only [dot_comm]

/-- The form on a face is the sum over all pairs of its cells. -/
theorem faceForm_pairs (d k : Nat) (eta : K) (m : Mesh P K) (Y X : Nat → Nat → K) (f : Nat) :
    faceForm d k eta m Y X f =
      ((sides m f).map fun s => ((sides m f).map fun t => pair d k eta m f Y X s t).sum).sum := by
  unfold pair faceForm
  simp only [← quad_listSum]
  refine quad_congr fun q _ => ?_
  have inner : ∀ s : Nat × (Nat → K), ((sides m f).map fun t =>
      eta / (m.face f).diam * dot d s.2 t.2 * val k m Y s.1 q.pt * val k m X t.1 q.pt -
      1 / ((sides m f).length : K) * val k m Y s.1 q.pt * dot d (grd k m X t.1 q.pt) s.2 -
      1 / ((sides m f).length : K) * dot d (grd k m Y s.1 q.pt) t.2 * val k m X t.1 q.pt).sum =
      eta / (m.face f).diam * (dot d s.2 (jump k m f X q.pt) * val k m Y s.1 q.pt) -
      dot d (avg k m f X q.pt) s.2 * val k m Y s.1 q.pt -
      1 / ((sides m f).length : K) * dot d (grd k m Y s.1 q.pt) (jump k m f X q.pt) := by
    intro s
    rw [dot_comm d (avg k m f X q.pt), dot_jump_right, dot_jump_right, dot_avg_right, list_mul, list_mul, ← list_smul,
      ← list_smul, ← list_sub, ← list_sub]
    exact congrArg List.sum (List.map_congr_left fun t _ => by ring)
  simp only [inner]
  rw [list_sub, list_sub, list_smul]
  congr 1
  · congr 1
    · congr 1
      rw [dot_comm, dot_jump_right]
      simp only [dot_comm]
    · rw [dot_comm, dot_jump_right]
  · rw [dot_comm, dot_avg_right]

/-! ### The matrices of a face -/

theorem att_eq (d : Nat) (eta : K) (nb : Bool) (tb : Basis P K) (n : Nat → K) (qs : List (QP P K)) (i j : Nat) :
    att d eta nb tb n qs i j = quad qs fun x => eta * tb.fn x i * tb.fn x j -
      (if nb then 1 / 2 else 1) * tb.fn x i * dn d tb n x j - (if nb then 1 / 2 else 1) * dn d tb n x i * tb.fn x j := by
  have h : ∀ (qs : List (QP P K)) (M : Mat K), (qs.foldl (fun M q =>
      if nb then addOuter (-(q.w * (1 / 2))) (dn d tb n q.pt) (tb.fn q.pt) (addOuter (-(q.w * (1 / 2))) (tb.fn q.pt)
        (dn d tb n q.pt) (addOuter (q.w * eta) (tb.fn q.pt) (tb.fn q.pt) M))
      else addOuter (-q.w) (dn d tb n q.pt) (tb.fn q.pt) (addOuter (-q.w) (tb.fn q.pt) (dn d tb n q.pt)
        (addOuter (q.w * eta) (tb.fn q.pt) (tb.fn q.pt) M))) M) i j = M i j + quad qs fun x =>
      eta * tb.fn x i * tb.fn x j -
      (if nb then 1 / 2 else 1) * tb.fn x i * dn d tb n x j - (if nb then 1 / 2 else 1) * dn d tb n x i * tb.fn x j := by
    intro qs
    induction qs with
    | nil => intro M; simp [quad]
    | cons q qs ih =>
      intro M
      rw [List.foldl_cons, ih, quad_cons]
      cases nb
      · simp only [addOuter, Bool.false_eq_true, if_false]; ring
      · simp only [addOuter, if_true]; ring
  unfold att
  rw [h]
  simp [zero]

theorem atn_eq (d : Nat) (eta : K) (tb nb : Basis P K) (n : Nat → K) (qs : List (QP P K)) (i j : Nat) :
    atn d eta tb nb n qs i j = quad qs fun x => -(eta * tb.fn x i * nb.fn x j) -
      1 / 2 * tb.fn x i * dn d nb n x j + 1 / 2 * dn d tb n x i * nb.fn x j := by
  have h : ∀ (qs : List (QP P K)) (M : Mat K), (qs.foldl (fun M q =>
      addOuter (q.w * (1 / 2)) (dn d tb n q.pt) (nb.fn q.pt) (addOuter (-(q.w * (1 / 2))) (tb.fn q.pt) (dn d nb n q.pt)
        (addOuter (-(q.w * eta)) (tb.fn q.pt) (nb.fn q.pt) M))) M) i j = M i j + quad qs fun x =>
      -(eta * tb.fn x i * nb.fn x j) - 1 / 2 * tb.fn x i * dn d nb n x j + 1 / 2 * dn d tb n x i * nb.fn x j := by
    intro qs
    induction qs with
    | nil => intro M; simp [quad]
    | cons q qs ih =>
      intro M
      rw [List.foldl_cons, ih, quad_cons]
      simp only [addOuter]; ring
  unfold atn
  rw [h]
  simp [zero]

theorem cellRhs_eq (k : Nat) (e : Elem P K) (f : P → K) (i : Nat) :
    cellRhs k e f i = quad (e.integrate (2 * k)) fun x => f x * (e.basis k).fn x i := by
  have h : ∀ (qs : List (QP P K)) (v : Nat → K),
      (qs.foldl (fun v q => fun i => v i + q.w * (e.basis k).fn q.pt i * f q.pt) v) i =
        v i + quad qs fun x => f x * (e.basis k).fn x i := by
    intro qs
    induction qs with
    | nil => intro M; simp [quad]
    | cons q qs ih => intro M; rw [List.foldl_cons, ih, quad_cons]; ring
  unfold cellRhs
  rw [h]
  simp

/-- A bilinear form with entries given by a quadrature rule. -/
theorem form_quad (n : Nat) (qs : List (QP P K)) (g : P → Nat → Nat → K) (v u : Nat → K) :
    form n (fun i j => quad qs fun x => g x i j) v u =
      quad qs fun x => ∑ i ∈ range n, ∑ j ∈ range n, v i * g x i j * u j := by
  unfold form app
  rw [quad_sum]
  refine sum_congr rfl fun i _ => ?_
  rw [quad_sum, mul_sum]
  refine sum_congr rfl fun j _ => ?_
  rw [mul_comm (quad qs _), ← mul_assoc, ← quad_mul]
  exact quad_congr fun q _ => by ring

theorem sum_prod (n : Nat) (a b v u : Nat → K) (t : K) :
    ∑ i ∈ range n, ∑ j ∈ range n, v i * (t * a i * b j) * u j =
      t * (∑ i ∈ range n, v i * a i) * ∑ j ∈ range n, u j * b j := by
  rw [mul_assoc, sum_mul_sum, mul_sum]
  refine sum_congr rfl fun i _ => ?_
  rw [mul_sum]
  exact sum_congr rfl fun j _ => by ring

theorem sum_dn (d : Nat) (b : Basis P K) (n : Nat → K) (x : P) (v : Nat → K) :
    ∑ i ∈ range b.size, v i * dn d b n x i = dot d (evalGrad b v x) n := by
  unfold dn
  rw [dot_comm]
  unfold evalGrad
  rw [dot_sum]
  simp only [dot_comm]

theorem att_form {d k cbs : Nat} {eta : K} {m : Mesh P K} (hs : ∀ a < m.ncells, ((m.cell a).elem.basis k).size = cbs)
    {a : Nat} (ha : a < m.ncells) (nb : Bool) (n : Nat → K) (qs : List (QP P K)) (Y X : Nat → Nat → K) :
    form cbs (att d eta nb ((m.cell a).elem.basis k) n qs) (Y a) (X a) = quad qs fun x =>
      eta * val k m Y a x * val k m X a x - (if nb then 1 / 2 else 1) * val k m Y a x * dot d (grd k m X a x) n -
        (if nb then 1 / 2 else 1) * dot d (grd k m Y a x) n * val k m X a x := by
  rw [show att d eta nb ((m.cell a).elem.basis k) n qs = fun i j => quad qs _ from
    funext fun i => funext fun j => att_eq ..]
  rw [form_quad]
  refine quad_congr fun q _ => ?_
  simp only [mul_sub, sub_mul, sum_sub_distrib, sum_prod]
  simp only [← hs a ha, sum_dn]
  rfl

theorem atn_form {d k cbs : Nat} {eta : K} {m : Mesh P K} (hs : ∀ a < m.ncells, ((m.cell a).elem.basis k).size = cbs)
    {a b : Nat} (ha : a < m.ncells) (hb : b < m.ncells) (n : Nat → K) (qs : List (QP P K)) (Y X : Nat → Nat → K) :
    form cbs (atn d eta ((m.cell a).elem.basis k) ((m.cell b).elem.basis k) n qs) (Y a) (X b) = quad qs fun x =>
      -(eta * val k m Y a x * val k m X b x) - 1 / 2 * val k m Y a x * dot d (grd k m X b x) n +
        1 / 2 * dot d (grd k m Y a x) n * val k m X b x := by
  rw [show atn d eta ((m.cell a).elem.basis k) ((m.cell b).elem.basis k) n qs = fun i j => quad qs _ from
    funext fun i => funext fun j => atn_eq ..]
  rw [form_quad]
  refine quad_congr fun q _ => ?_
  simp only [mul_sub, sub_mul, mul_add, add_mul, mul_neg, neg_mul, sum_sub_distrib, sum_add_distrib, sum_neg_distrib,
    sum_prod]
  have e1 : ∀ v : Nat → K, ∑ i ∈ range cbs, v i * dn d ((m.cell a).elem.basis k) n q.pt i =
      dot d (evalGrad ((m.cell a).elem.basis k) v q.pt) n := fun v => by rw [← hs a ha, sum_dn]
  have e2 : ∀ v : Nat → K, ∑ i ∈ range cbs, v i * dn d ((m.cell b).elem.basis k) n q.pt i =
      dot d (evalGrad ((m.cell b).elem.basis k) v q.pt) n := fun v => by rw [← hs b hb, sum_dn]
  have e3 : ∀ v : Nat → K, ∑ i ∈ range cbs, v i * ((m.cell a).elem.basis k).fn q.pt i =
      evalFn ((m.cell a).elem.basis k) v q.pt := fun v => by rw [← hs a ha]; rfl
  have e4 : ∀ v : Nat → K, ∑ i ∈ range cbs, v i * ((m.cell b).elem.basis k).fn q.pt i =
      evalFn ((m.cell b).elem.basis k) v q.pt := fun v => by rw [← hs b hb]; rfl
  simp only [e1, e2, e3, e4]
  rfl

theorem cell_form {d k cbs : Nat} {m : Mesh P K} (hs : ∀ a < m.ncells, ((m.cell a).elem.basis k).size = cbs)
    {a : Nat} (ha : a < m.ncells) (Y X : Nat → Nat → K) :
    form cbs (cellMat d k (m.cell a).elem) (Y a) (X a) = cellForm d k m Y X a := by
  rw [show cellMat d k (m.cell a).elem = fun i j => quad _ _ from funext fun i => funext fun j => accumDot_eq ..]
  rw [form_quad]
  refine quad_congr fun q _ => ?_
  rw [← hs a ha]
  unfold grd
  rw [dot_comm]
  conv_rhs => unfold evalGrad
  rw [dot_sum]
  refine sum_congr rfl fun i _ => ?_
  rw [dot_comm, dot_sum, mul_sum]
  exact sum_congr rfl fun j _ => by ring

theorem load_form {k cbs : Nat} {m : Mesh P K} (hs : ∀ a < m.ncells, ((m.cell a).elem.basis k).size = cbs)
    {a : Nat} (ha : a < m.ncells) (f : P → K) (Y : Nat → Nat → K) :
    ∑ i ∈ range cbs, cellRhs k (m.cell a).elem f i * Y a i =
      quad ((m.cell a).elem.integrate (2 * k)) fun x => f x * val k m Y a x := by
  rw [← hs a ha]
  unfold Spec.Dg.val evalFn
  simp only [mul_sum]
  rw [quad_sum]
  refine sum_congr rfl fun i _ => ?_
  rw [cellRhs_eq, mul_comm, ← quad_mul]
  exact quad_congr fun q _ => by ring

end Verif.Lemmas.Dg
