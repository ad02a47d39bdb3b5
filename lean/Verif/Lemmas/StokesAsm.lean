import Verif.Model.StokesAsm
import Verif.Spec.StokesAsm
import Verif.Lemmas.VectorAsm
/-!
Lemmas on the assembly of the Stokes system.
-/
namespace Verif.StokesAsm
open Finset Verif.BoundaryCond Verif.Assembly Verif.Spec Verif.VectorAsm

/-! ### Numbering -/

theorem dofNumber_append_left (a b : DofTable) (f i : Nat) (h : f < a.length) :
    dofNumber (a ++ b) f i = dofNumber a f i := by
  induction a generalizing f with
  | nil => simp at h
  | cons d a ih =>
    cases f with
    | zero => rfl
    | succ f => simp only [List.cons_append, dofNumber]; rw [ih f (by simpa using h)]

theorem dofNumber_append_right (a b : DofTable) (k i : Nat) :
    dofNumber (a ++ b) (a.length + k) i = numFree a + dofNumber b k i := by
  induction a with
  | nil => simp [numFree]
  | cons d a ih =>
    rw [List.length_cons, Nat.add_right_comm]
    simp only [List.cons_append, dofNumber, numFree]
    rw [ih]; ring

theorem numFree_append (a b : DofTable) : numFree (a ++ b) = numFree a + numFree b := by
  induction a with
  | nil => simp [numFree]
  | cons d a ih => simp only [List.cons_append, numFree]; rw [ih]; ring

theorem freeBefore_all (n i : Nat) : freeBefore (n, fun _ => false) i = i := by
  simp only [freeBefore]
  induction i with
  | zero => rfl
  | succ n ih => rw [Nat.count_succ, ih]; simp

theorem freeBefore_none (n i : Nat) : freeBefore (n, fun _ => true) i = 0 := by
  simp only [freeBefore]
  induction i with
  | zero => rfl
  | succ n ih => rw [Nat.count_succ, ih]; simp

theorem dofNumber_replicate (n k f i : Nat) (h : f < n) :
    dofNumber (List.replicate n (k, fun _ => false)) f i = f * k + i := by
  induction n generalizing f with
  | zero => omega
  | succ n ih =>
    rw [List.replicate_succ]
    cases f with
    | zero => simp [dofNumber, freeBefore_all]
    | succ f => simp only [dofNumber, freeBefore_all]; rw [ih f (by omega)]; ring

theorem numFree_replicate (n k : Nat) : numFree (List.replicate n (k, fun _ => false)) = n * k := by
  induction n with
  | zero => simp [numFree]
  | succ n ih => rw [List.replicate_succ]; simp only [numFree, freeBefore_all, ih]; ring

theorem numFree_faces (b : Nat) (dir : List Bool) : numFree (dir.map fun d => (b, fun _ => d)) = dir.count false * b := by
  induction dir with
  | nil => simp [numFree]
  | cons d ds ih =>
    simp only [List.map_cons, numFree, ih]
    cases d with
    | false => simp [freeBefore_all]; ring
    | true => simp [freeBefore_none]

theorem dofNumber_faces (b : Nat) (dir : List Bool) (f i : Nat) (h : dir[f]? = some false) :
    dofNumber (dir.map fun d => (b, fun _ => d)) f i = unknownPos dir f * b + i := by
  induction dir generalizing f with
  | nil => simp at h
  | cons d ds ih =>
    cases f with
    | zero =>
      simp at h
      subst h
      simp [dofNumber, freeBefore_all, unknownPos]
    | succ f =>
      simp only [List.map_cons, dofNumber]
      rw [ih f (by simpa using h)]
      cases d with
      | false => simp [freeBefore_all, unknownPos]; ring
      | true => simp [freeBefore_none, unknownPos]

/-- Table of the unknowns. -/
def tab (s : Cfg) : DofTable := stokesTable s.nC s.cbsA s.fbs s.cbsB s.dir

theorem dir_length (s : Cfg) : s.dir.length = s.faces.length := by simp [Cfg.dir]

theorem other_eq (s : Cfg) : s.other = s.dir.count false := by
  have := count_true_add_false s.dir
  simp only [Cfg.other, numDirichlet, ← dir_length]
  omega

theorem tab_cell (s : Cfg) (c : Nat) (h : c < s.nC) :
    (tab s)[c]? = some (s.cbsA, fun _ => false) ∧ ∀ i, dofNumber (tab s) c i = c * s.cbsA + i := by
  refine ⟨?_, fun i => ?_⟩
  · rw [tab, stokesTable, List.getElem?_append_left (by simpa using h)]
    simp [h]
  · rw [tab, stokesTable, dofNumber_append_left _ _ _ _ (by simpa using h), dofNumber_replicate _ _ _ _ h]

theorem tab_face (s : Cfg) (f : Nat) (d : Bool) (h : s.dir[f]? = some d) :
    (tab s)[s.nC + f]? = some (s.fbs, fun _ => d) ∧
      (d = false → ∀ i, dofNumber (tab s) (s.nC + f) i = s.cbsA * s.nC + unknownPos s.dir f * s.fbs + i) := by
  have hlt : f < s.dir.length := (List.getElem?_eq_some_iff.1 h).1
  refine ⟨?_, fun hd i => ?_⟩
  · rw [tab, stokesTable, List.getElem?_append_right (by simp), List.getElem?_append_left (by simpa using hlt)]
    simp [h]
  · subst hd
    have e := dofNumber_append_right (List.replicate s.nC (s.cbsA, fun _ => false))
      (s.dir.map (fun d => (s.fbs, fun _ => d)) ++
        (List.replicate s.nC (s.cbsB, fun _ => false) ++ [(1, fun _ => false)])) f i
    rw [List.length_replicate] at e
    rw [tab, stokesTable, e, numFree_replicate, dofNumber_append_left _ _ _ _ (by simpa using hlt),
      dofNumber_faces _ _ _ _ h]
    ring

theorem tab_tail (s : Cfg) (k i : Nat) :
    (tab s)[s.nC + s.faces.length + k]? =
      (List.replicate s.nC (s.cbsB, fun _ => false) ++ [(1, fun _ => false)] : DofTable)[k]? ∧
    dofNumber (tab s) (s.nC + s.faces.length + k) i = s.cbsA * s.nC + s.fbs * s.other +
      dofNumber (List.replicate s.nC (s.cbsB, fun _ => false) ++ [(1, fun _ => false)]) k i := by
  constructor
  · rw [tab, stokesTable, List.getElem?_append_right (by simp; omega), List.getElem?_append_right (by simp [dir_length]; omega)]
    congr 1
    simp [dir_length]; omega
  · have e := dofNumber_append_right (List.replicate s.nC (s.cbsA, fun _ => false))
      (s.dir.map (fun d => (s.fbs, fun _ => d)) ++
        (List.replicate s.nC (s.cbsB, fun _ => false) ++ [(1, fun _ => false)])) (s.faces.length + k) i
    have e2 := dofNumber_append_right (s.dir.map (fun d => (s.fbs, fun _ => d)))
      (List.replicate s.nC (s.cbsB, fun _ => false) ++ [(1, fun _ => false)]) k i
    rw [List.length_replicate] at e
    rw [List.length_map, dir_length] at e2
    rw [tab, stokesTable, Nat.add_assoc, e, e2, numFree_replicate, numFree_faces, other_eq]
    ring

theorem tab_pressure (s : Cfg) (c : Nat) (h : c < s.nC) :
    (tab s)[s.nC + s.faces.length + c]? = some (s.cbsB, fun _ => false) ∧
      ∀ i, dofNumber (tab s) (s.nC + s.faces.length + c) i = s.bOff c + i := by
  refine ⟨?_, fun i => ?_⟩
  · rw [(tab_tail s c 0).1, List.getElem?_append_left (by simpa using h)]
    simp [h]
  · rw [(tab_tail s c i).2, dofNumber_append_left _ _ _ _ (by simpa using h), dofNumber_replicate _ _ _ _ h, Cfg.bOff]
    ring

theorem tab_mult (s : Cfg) :
    (tab s)[s.nC + s.faces.length + s.nC]? = some (1, fun _ => false) ∧
      ∀ i, dofNumber (tab s) (s.nC + s.faces.length + s.nC) i = s.mOff + i := by
  refine ⟨?_, fun i => ?_⟩
  · rw [(tab_tail s s.nC 0).1, List.getElem?_append_right (by simp)]
    simp
  · have e := dofNumber_append_right (List.replicate s.nC (s.cbsB, fun _ => false)) [(1, fun _ => false)] 0 i
    rw [List.length_replicate, Nat.add_zero, numFree_replicate] at e
    rw [(tab_tail s s.nC i).2, e, Cfg.mOff]
    simp only [dofNumber, freeBefore_all]
    ring

theorem numFree_tab (s : Cfg) : numFree (tab s) = s.size := by
  rw [tab, stokesTable, numFree_append, numFree_append, numFree_append, numFree_replicate, numFree_faces,
    numFree_replicate, Cfg.size, other_eq]
  simp only [numFree, freeBefore_all]
  ring

/-! ### Local maps -/

variable {K : Type} [CommRing K]

theorem dofsOf_append (ds : DofTable) (a b : List Nat) : dofsOf ds (a ++ b) = dofsOf ds a ++ dofsOf ds b := by
  simp [dofsOf]

theorem goodMap_append (ds : DofTable) (l1 l2 : List (Nat × Nat)) (a1 a2 : List AsmIdx) (h1 : GoodMap ds l1 a1)
    (h2 : GoodMap ds l2 a2) : GoodMap ds (l1 ++ l2) (a1 ++ a2) := by
  refine ⟨by simp [h1.1, h2.1], fun p x hx => ?_⟩
  by_cases hp : p < l1.length
  · rw [List.getElem?_append_left hp] at hx
    rw [getD_append_lt _ _ _ _ (by rw [h1.1]; exact hp)]
    exact h1.2 p x hx
  · rw [List.getElem?_append_right (by omega)] at hx
    rw [getD_append_ge _ _ _ _ (by rw [h1.1]; omega), h1.1]
    exact h2.2 _ x hx

theorem goodMap_block (ds : DofTable) (e n base : Nat) (d : Bool) (h : ds[e]? = some (n, fun _ => d))
    (hn : d = false → ∀ i, dofNumber ds e i = base + i) :
    GoodMap ds (dofsOf ds [e]) ((List.range n).map fun i => ⟨base + i, !d⟩) := by
  have hl : dofsOf ds [e] = (List.range n).map fun i => (e, i) := by simp [dofsOf, h]
  refine ⟨by simp [hl], fun p x hx => ?_⟩
  rw [hl] at hx
  by_cases hp : p < n
  · simp only [List.getElem?_map, List.getElem?_range hp, Option.map_some, Option.some.injEq] at hx
    subst hx
    have hg : ((List.range n).map fun i => (⟨base + i, !d⟩ : AsmIdx)).getD p ⟨0, false⟩ = ⟨base + p, !d⟩ := by
      simp [List.getD_eq_getElem?_getD, hp]
    rw [hg]
    exact ⟨_, h, hp, rfl, fun hd => (hn hd p).symm⟩
  · rw [List.getElem?_eq_none (by simp; omega)] at hx
    simp at hx

/-- The compress table. -/
def GoodTable (s : Cfg) (t : List Nat) : Prop :=
  t.length = s.faces.length ∧ ∀ f, s.dir[f]? = some false → t[f]? = some (unknownPos s.dir f)

/-- Prescribed values; entity numbers of faces start at `nC`. -/
def val (s : Cfg) (proj : Nat → Nat → K) (e i : Nat) : K := proj (e - s.nC) i

theorem faceLoop_spec (s : Cfg) (t : List Nat) (ht : GoodTable s t) (proj : Nat → Nat → K) (fcs : List Nat)
    (hf : ∀ f ∈ fcs, f < s.faces.length) :
    ∃ a, faceLoop s t proj fcs = .ok a ∧ GoodMap (tab s) (dofsOf (tab s) (fcs.map (s.nC + ·))) a.1 ∧
      a.2.length = a.1.length ∧
      ∀ p x, (dofsOf (tab s) (fcs.map (s.nC + ·)))[p]? = some x → (a.1.getD p ⟨0, false⟩).assem = false →
        a.2.getD p 0 = val s proj x.1 x.2 := by
  induction fcs with
  | nil => exact ⟨([], []), rfl, ⟨rfl, by simp [dofsOf]⟩, rfl, by simp [dofsOf]⟩
  | cons f fcs ih =>
    obtain ⟨r, r1, r2, r3, r4⟩ := ih fun g hg => hf g (by simp [hg])
    have hfl := hf f (by simp)
    have hvf : vat s.faces f = .ok s.faces[f] := by simp [vat, hfl]
    have hdir : s.dir[f]? = some s.faces[f].1 := by simp [Cfg.dir, hfl]
    have htl : f < t.length := by rw [ht.1]; exact hfl
    have hvt : vat t f = .ok t[f] := by simp [vat, htl]
    obtain ⟨b1, b2⟩ := tab_face s f _ hdir
    have hblock := goodMap_block (tab s) (s.nC + f) s.fbs (s.cbsA * s.nC + t[f] * s.fbs) s.faces[f].1 b1 (by
      intro hd i
      rw [b2 hd]
      have := ht.2 f (by rw [hdir, hd])
      rw [List.getElem?_eq_getElem htl, Option.some.injEq] at this
      rw [this])
    have hl : dofsOf (tab s) ((f :: fcs).map (s.nC + ·)) =
        dofsOf (tab s) [s.nC + f] ++ dofsOf (tab s) (fcs.map (s.nC + ·)) := by
      rw [← dofsOf_append]; rfl
    refine ⟨_, by simp only [faceLoop, hvf, hvt, Outcome.bind_ok, r1]; rfl, ?_, ?_, ?_⟩
    · rw [hl]
      exact goodMap_append _ _ _ _ _ hblock r2
    · simp [r3]
    · intro p x hx hp
      rw [hl] at hx
      have hlen : (dofsOf (tab s) [s.nC + f]).length = s.fbs := by simp [dofsOf, b1]
      by_cases hpl : p < s.fbs
      · rw [List.getElem?_append_left (by rw [hlen]; exact hpl)] at hx
        rw [getD_append_lt _ _ _ _ (by simpa using hpl)] at hp ⊢
        have hx' : x = (s.nC + f, p) := by
          simp [dofsOf, b1, List.getElem?_range hpl] at hx
          exact hx.symm
        subst hx'
        have hd : s.faces[f].1 = true := by
          simpa [List.getD_eq_getElem?_getD, hpl] using hp
        simp [List.getD_eq_getElem?_getD, hpl, hd, val]
      · rw [List.getElem?_append_right (by rw [hlen]; omega), hlen] at hx
        rw [getD_append_ge _ _ _ _ (by simp; omega)] at hp ⊢
        simp only [List.length_map, List.length_range] at hp ⊢
        exact r4 _ x hx hp

/-- `asm_map` extended by the pressure and the multiplier. -/
def extMap (s : Cfg) (c : Nat) (asm : List AsmIdx) : List AsmIdx :=
  asm ++ ((List.range s.cbsB).map (fun i => AsmIdx.mk (s.bOff c + i) true) ++ [AsmIdx.mk s.mOff true])

/-- Coefficients of a cell. -/
def cellDofs (s : Cfg) (c : Nat) (fcs : List Nat) : List (Nat × Nat) :=
  dofsOf (tab s) (stokesEntities s.nC s.faces.length c fcs)

theorem localMap_spec (s : Cfg) (t : List Nat) (ht : GoodTable s t) (proj : Nat → Nat → K) (c : Nat) (hc : c < s.nC)
    (fcs : List Nat) (hf : ∀ f ∈ fcs, f < s.faces.length) :
    ∃ a, localMap s t proj c fcs = .ok a ∧ GoodMap (tab s) (cellDofs s c fcs) (extMap s c a.1) ∧
      a.1.length = s.cbsA + fcs.length * s.fbs ∧
      (cellDofs s c fcs).length = a.1.length + s.cbsB + 1 ∧
      (∀ i < s.cbsA, a.1.getD i ⟨0, false⟩ = ⟨c * s.cbsA + i, true⟩) ∧
      ∀ p < a.1.length, ∀ x, (cellDofs s c fcs)[p]? = some x → (a.1.getD p ⟨0, false⟩).assem = false →
        a.2.getD p 0 = val s proj x.1 x.2 := by
  obtain ⟨r, r1, r2, r3, r4⟩ := faceLoop_spec s t ht proj fcs hf
  obtain ⟨c1, c2⟩ := tab_cell s c hc
  obtain ⟨p1, p2⟩ := tab_pressure s c hc
  obtain ⟨m1, m2⟩ := tab_mult s
  have hcell := goodMap_block (tab s) c s.cbsA (c * s.cbsA) false c1 fun _ i => c2 i
  have hpres := goodMap_block (tab s) (s.nC + s.faces.length + c) s.cbsB (s.bOff c) false p1 fun _ i => p2 i
  have hmult := goodMap_block (tab s) (s.nC + s.faces.length + s.nC) 1 s.mOff false m1 fun _ i => m2 i
  have hl : cellDofs s c fcs = (dofsOf (tab s) [c] ++ dofsOf (tab s) (fcs.map (s.nC + ·))) ++
      (dofsOf (tab s) [s.nC + s.faces.length + c] ++ dofsOf (tab s) [s.nC + s.faces.length + s.nC]) := by
    rw [cellDofs, stokesEntities, ← dofsOf_append, ← dofsOf_append, ← dofsOf_append]
    rfl
  have hlenf : (dofsOf (tab s) (fcs.map (s.nC + ·))).length = fcs.length * s.fbs := by
    clear r1 r2 r3 r4 r hl
    induction fcs with
    | nil => simp [dofsOf]
    | cons f fcs ih =>
      have hfl := hf f (by simp)
      obtain ⟨b1, _⟩ := tab_face s f s.faces[f].1 (by simp [Cfg.dir, hfl])
      have e : dofsOf (tab s) ((f :: fcs).map (s.nC + ·)) =
        dofsOf (tab s) [s.nC + f] ++ dofsOf (tab s) (fcs.map (s.nC + ·)) := by rw [← dofsOf_append]; rfl
      rw [e, List.length_append, ih fun g hg => hf g (by simp [hg])]
      simp [dofsOf, b1]
      ring
  have hlenc : (dofsOf (tab s) [c]).length = s.cbsA := by simp [dofsOf, c1]
  have hlenp : (dofsOf (tab s) [s.nC + s.faces.length + c]).length = s.cbsB := by simp [dofsOf, p1]
  have hlenm : (dofsOf (tab s) [s.nC + s.faces.length + s.nC]).length = 1 := by simp [dofsOf, m1]
  have hr1 : r.1.length = fcs.length * s.fbs := by rw [r2.1, hlenf]
  refine ⟨_, by simp only [localMap, r1, Outcome.bind_ok]; rfl, ?_, ?_, ?_, ?_, ?_⟩
  · rw [hl]
    exact goodMap_append _ _ _ _ _ (goodMap_append _ _ _ _ _ hcell r2) (goodMap_append _ _ _ _ _ hpres hmult)
  · simp [hr1]
  · simp only [hl, List.length_append, hlenf, hlenc, hlenp, hlenm, List.length_map, List.length_range, hr1]
    ring
  · intro i hi
    rw [getD_append_lt _ _ _ _ (by simpa using hi)]
    simp [List.getD_eq_getElem?_getD, hi]
  · intro p hp x hx hpa
    simp only [List.length_append, List.length_map, List.length_range, hr1] at hp
    by_cases hpl : p < s.cbsA
    · rw [getD_append_lt _ _ _ _ (by simpa using hpl)] at hpa
      simp [List.getD_eq_getElem?_getD, hpl] at hpa
    · rw [getD_append_ge _ _ _ _ (by simp; omega)] at hpa ⊢
      simp only [List.length_map, List.length_range, List.length_replicate] at hpa ⊢
      rw [hl, List.getElem?_append_left (by rw [List.length_append, hlenc, hlenf]; exact hp),
        List.getElem?_append_right (by rw [hlenc]; omega), hlenc] at hx
      exact r4 _ x hx hpa

/-! ### Local residual -/

theorem generic_residual (ds : DofTable) (l : List (Nat × Nat)) (asm : List AsmIdx) (h : GoodMap ds l asm)
    (lhs : Nat → Nat → K) (rhs bc : Nat → K) (val : Nat → Nat → K)
    (hbc : ∀ p < l.length, bc p = ∑ q ∈ range l.length, (l[q]?).elim 0 fun y =>
      if (asm.getD q ⟨0, false⟩).assem then 0 else lhs p q * val y.1 y.2)
    (u : Nat → K) (x : Nat × Nat) (hx : IsFreeDof ds x.1 x.2) :
    rowSum (localTriplets asm lhs l.length) u (dofNumber ds x.1 x.2) -
        duoSum (localDuos asm rhs bc l.length) (dofNumber ds x.1 x.2) =
      dofResidual l lhs rhs (dofValue ds val u) x := by
  rw [rowSum_local, duoSum_local, ← sum_sub_distrib, dofResidual]
  refine sum_congr rfl fun p hp => ?_
  have hp := mem_range.1 hp
  have hiff := goodMap_iff _ _ _ h p x hx
  by_cases hlp : l[p]? = some x
  · rw [if_pos (hiff.2 hlp), if_pos (hiff.2 hlp), if_pos hlp, hbc p hp]
    rw [show ∀ a b c : K, a - (b - c) = (a + c) - b from fun a b c => by ring, ← sum_add_distrib]
    congr 1
    refine sum_congr rfl fun q hq => ?_
    have hq := mem_range.1 hq
    have hgq : l[q]? = some l[q] := by simp [hq]
    obtain ⟨d, d1, d2, d3, d4⟩ := h.2 q _ hgq
    rw [hgq]
    simp only [Option.elim_some, dofValue, d1, d3]
    cases hfx : d.2 l[q].2 with
    | false => rw [d4 hfx]; simp
    | true => simp
  · rw [if_neg (fun e => hlp (hiff.1 e)), if_neg (fun e => hlp (hiff.1 e)), if_neg hlp, sub_zero]

theorem rowSum_two (a b : Nat × Nat × K) (u : Nat → K) (g : Nat) :
    rowSum [a, b] u g = (if a.1 = g then a.2.2 * u a.2.1 else 0) + if b.1 = g then b.2.2 * u b.2.1 else 0 := by
  by_cases h1 : a.1 = g <;> by_cases h2 : b.1 = g <;> simp [rowSum, h1, h2]

theorem ext_lt (s : Cfg) (c : Nat) (asm : List AsmIdx) (i : Nat) (h : i < asm.length) :
    (extMap s c asm).getD i ⟨0, false⟩ = at' asm i := by
  rw [extMap, getD_append_lt _ _ _ _ h]; rfl

theorem ext_mid (s : Cfg) (c : Nat) (asm : List AsmIdx) (k : Nat) (h : k < s.cbsB) :
    (extMap s c asm).getD (asm.length + k) ⟨0, false⟩ = ⟨s.bOff c + k, true⟩ := by
  rw [extMap, getD_append_ge _ _ _ _ (by omega), Nat.add_sub_cancel_left, getD_append_lt _ _ _ _ (by simpa using h)]
  simp [List.getD_eq_getElem?_getD, h]

theorem ext_last (s : Cfg) (c : Nat) (asm : List AsmIdx) :
    (extMap s c asm).getD (asm.length + s.cbsB) ⟨0, false⟩ = ⟨s.mOff, true⟩ := by
  rw [extMap, getD_append_ge _ _ _ _ (by omega), Nat.add_sub_cancel_left, getD_append_ge _ _ _ _ (by simp)]
  simp

theorem sum_three (n p : Nat) (F : Nat → K) :
    ∑ i ∈ range (n + p + 1), F i = (∑ i ∈ range n, F i + ∑ k ∈ range p, F (n + k)) + F (n + p) := by
  rw [sum_range_succ, sum_range_add]

theorem saddle_ll (n p : Nat) (A B : Nat → Nat → K) (m : Nat → K) (i j : Nat) (hi : i < n) (hj : j < n) :
    saddle n p A B m i j = A i j := by rw [saddle, if_pos hi, if_pos hj]

theorem saddle_lm (n p : Nat) (A B : Nat → Nat → K) (m : Nat → K) (i k : Nat) (hi : i < n) (hk : k < p) :
    saddle n p A B m i (n + k) = B k i := by
  rw [saddle, if_pos hi, if_neg (by omega), if_pos (by omega), Nat.add_sub_cancel_left]

theorem saddle_lr (n p : Nat) (A B : Nat → Nat → K) (m : Nat → K) (i : Nat) (hi : i < n) :
    saddle n p A B m i (n + p) = 0 := by
  rw [saddle, if_pos hi, if_neg (by omega), if_neg (by omega)]

theorem saddle_ml (n p : Nat) (A B : Nat → Nat → K) (m : Nat → K) (k j : Nat) (hk : k < p) (hj : j < n) :
    saddle n p A B m (n + k) j = B k j := by
  rw [saddle, if_neg (by omega), if_pos (by omega), if_pos hj, Nat.add_sub_cancel_left]

theorem saddle_mm (n p : Nat) (A B : Nat → Nat → K) (m : Nat → K) (k l : Nat) (hk : k < p) (hl : l < p) :
    saddle n p A B m (n + k) (n + l) = 0 := by
  rw [saddle, if_neg (by omega), if_pos (by omega), if_neg (by omega), if_pos (by omega)]

theorem saddle_mr (n p : Nat) (A B : Nat → Nat → K) (m : Nat → K) (k : Nat) (hk : k < p) :
    saddle n p A B m (n + k) (n + p) = m k := by
  rw [saddle, if_neg (by omega), if_pos (by omega), if_neg (by omega), if_neg (by omega), Nat.add_sub_cancel_left]

theorem saddle_rl (n p : Nat) (A B : Nat → Nat → K) (m : Nat → K) (j : Nat) (hj : j < n) :
    saddle n p A B m (n + p) j = 0 := by
  rw [saddle, if_neg (by omega), if_neg (by omega), if_pos hj]

theorem saddle_rm (n p : Nat) (A B : Nat → Nat → K) (m : Nat → K) (l : Nat) (hl : l < p) :
    saddle n p A B m (n + p) (n + l) = m l := by
  rw [saddle, if_neg (by omega), if_neg (by omega), if_neg (by omega), if_pos (by omega), Nat.add_sub_cancel_left]

theorem saddle_rr (n p : Nat) (A B : Nat → Nat → K) (m : Nat → K) : saddle n p A B m (n + p) (n + p) = 0 := by
  rw [saddle, if_neg (by omega), if_neg (by omega), if_neg (by omega), if_neg (by omega)]

/-- The triplets of a cell are those of the saddle point matrix. -/
theorem rowSum_cell (s : Cfg) (c : Nat) (asm : List AsmIdx) (A B : Nat → Nat → K) (mult : Nat → K) (u : Nat → K) (g : Nat) :
    rowSum (localTriplets asm A asm.length ++ bTriplets asm B (s.bOff c) s.cbsB asm.length ++
        mTriplets mult (s.bOff c) s.mOff s.cbsB) u g =
      rowSum (localTriplets (extMap s c asm) (saddle asm.length s.cbsB A B mult) (asm.length + s.cbsB + 1)) u g := by
  set n := asm.length with hn
  rw [rowSum_append, rowSum_append, rowSum_local, rowSum_local, sum_three n s.cbsB]
  have hb : rowSum (bTriplets asm B (s.bOff c) s.cbsB n) u g =
      ∑ j ∈ range n, (if (at' asm j).assem ∧ (at' asm j).idx = g then ∑ k ∈ range s.cbsB, B k j * u (s.bOff c + k) else 0) +
      ∑ k ∈ range s.cbsB, if s.bOff c + k = g then
        ∑ j ∈ range n, (if (at' asm j).assem then B k j * u (at' asm j).idx else 0) else 0 := by
    rw [bTriplets, rowSum_flatMap]
    have e1 : ∑ j ∈ range n, (if (at' asm j).assem ∧ (at' asm j).idx = g then
          ∑ k ∈ range s.cbsB, B k j * u (s.bOff c + k) else 0) =
        ∑ k ∈ range s.cbsB, ∑ j ∈ range n,
          if (at' asm j).assem ∧ (at' asm j).idx = g then B k j * u (s.bOff c + k) else 0 := by
      rw [sum_comm]
      refine sum_congr rfl fun j _ => ?_
      by_cases h : (at' asm j).assem ∧ (at' asm j).idx = g
      · rw [if_pos h]; exact sum_congr rfl fun k _ => by rw [if_pos h]
      · rw [if_neg h]; exact (sum_eq_zero fun k _ => by rw [if_neg h]).symm
    rw [e1, ← sum_add_distrib]
    refine sum_congr rfl fun k _ => ?_
    rw [rowSum_flatMap]
    have e2 : (if s.bOff c + k = g then ∑ j ∈ range n, (if (at' asm j).assem then B k j * u (at' asm j).idx else 0) else 0) =
        ∑ j ∈ range n, if s.bOff c + k = g then (if (at' asm j).assem then B k j * u (at' asm j).idx else 0) else 0 := by
      by_cases h : s.bOff c + k = g
      · simp only [if_pos h]
      · simp only [if_neg h]; simp
    rw [e2, ← sum_add_distrib]
    refine sum_congr rfl fun j _ => ?_
    cases ha : (at' asm j).assem with
    | false => simp [rowSum]
    | true =>
      rw [if_pos rfl, rowSum_two]
      simp only [true_and, if_true]
      rw [add_comm]
  have hm : rowSum (mTriplets mult (s.bOff c) s.mOff s.cbsB) u g =
      ∑ k ∈ range s.cbsB, (if s.bOff c + k = g then mult k * u s.mOff else 0) +
      if s.mOff = g then ∑ k ∈ range s.cbsB, mult k * u (s.bOff c + k) else 0 := by
    rw [mTriplets, rowSum_flatMap]
    have e2 : (if s.mOff = g then ∑ k ∈ range s.cbsB, mult k * u (s.bOff c + k) else 0) =
        ∑ k ∈ range s.cbsB, if s.mOff = g then mult k * u (s.bOff c + k) else 0 := by
      by_cases h : s.mOff = g
      · simp only [if_pos h]
      · simp only [if_neg h]; simp
    rw [e2, ← sum_add_distrib]
    exact sum_congr rfl fun k _ => rowSum_two _ _ _ _
  have h1 : ∀ i ∈ range n, (if ((extMap s c asm).getD i ⟨0, false⟩).assem ∧ ((extMap s c asm).getD i ⟨0, false⟩).idx = g then
        ∑ j ∈ range (n + s.cbsB + 1), if ((extMap s c asm).getD j ⟨0, false⟩).assem then
          saddle n s.cbsB A B mult i j * u ((extMap s c asm).getD j ⟨0, false⟩).idx else 0 else 0) =
      (if (asm.getD i ⟨0, false⟩).assem ∧ (asm.getD i ⟨0, false⟩).idx = g then
        ∑ j ∈ range n, if (asm.getD j ⟨0, false⟩).assem then A i j * u (asm.getD j ⟨0, false⟩).idx else 0 else 0) +
      (if (at' asm i).assem ∧ (at' asm i).idx = g then ∑ k ∈ range s.cbsB, B k i * u (s.bOff c + k) else 0) := by
    intro i hi
    have hi := mem_range.1 hi
    rw [ext_lt s c asm i hi]
    change _ = (if (at' asm i).assem ∧ (at' asm i).idx = g then _ else 0) + _
    by_cases h : (at' asm i).assem ∧ (at' asm i).idx = g
    · rw [if_pos h, if_pos h, if_pos h, sum_three, ext_last, saddle_lr _ _ _ _ _ _ hi]
      simp only [zero_mul, if_true, add_zero]
      congr 1
      · refine sum_congr rfl fun j hj => ?_
        have hj := mem_range.1 hj
        rw [ext_lt s c asm j hj, saddle_ll _ _ _ _ _ _ _ hi hj]
        rfl
      · refine sum_congr rfl fun k hk => ?_
        have hk := mem_range.1 hk
        rw [ext_mid s c asm k hk, saddle_lm _ _ _ _ _ _ _ hi hk]
        rfl
    · rw [if_neg h, if_neg h, if_neg h, add_zero]
  have h2 : ∀ k ∈ range s.cbsB, (if ((extMap s c asm).getD (n + k) ⟨0, false⟩).assem ∧
          ((extMap s c asm).getD (n + k) ⟨0, false⟩).idx = g then
        ∑ j ∈ range (n + s.cbsB + 1), if ((extMap s c asm).getD j ⟨0, false⟩).assem then
          saddle n s.cbsB A B mult (n + k) j * u ((extMap s c asm).getD j ⟨0, false⟩).idx else 0 else 0) =
      (if s.bOff c + k = g then ∑ j ∈ range n, (if (at' asm j).assem then B k j * u (at' asm j).idx else 0) else 0) +
      (if s.bOff c + k = g then mult k * u s.mOff else 0) := by
    intro k hk
    have hk := mem_range.1 hk
    rw [ext_mid s c asm k hk]
    simp only [true_and]
    by_cases h : s.bOff c + k = g
    · rw [if_pos h, if_pos h, if_pos h, sum_three, ext_last, saddle_mr _ _ _ _ _ _ hk]
      simp only [if_true]
      congr 1
      rw [sum_congr rfl (g := fun j => if (at' asm j).assem then B k j * u (at' asm j).idx else 0)]
      · rw [sum_eq_zero (s := range s.cbsB), add_zero]
        intro l hl
        have hl := mem_range.1 hl
        rw [saddle_mm _ _ _ _ _ _ _ hk hl]
        simp
      · intro j hj
        have hj := mem_range.1 hj
        rw [ext_lt s c asm j hj, saddle_ml _ _ _ _ _ _ _ hk hj]
    · rw [if_neg h, if_neg h, if_neg h, add_zero]
  have h3 : (if ((extMap s c asm).getD (n + s.cbsB) ⟨0, false⟩).assem ∧
          ((extMap s c asm).getD (n + s.cbsB) ⟨0, false⟩).idx = g then
        ∑ j ∈ range (n + s.cbsB + 1), if ((extMap s c asm).getD j ⟨0, false⟩).assem then
          saddle n s.cbsB A B mult (n + s.cbsB) j * u ((extMap s c asm).getD j ⟨0, false⟩).idx else 0 else 0) =
      if s.mOff = g then ∑ k ∈ range s.cbsB, mult k * u (s.bOff c + k) else 0 := by
    rw [ext_last]
    simp only [true_and]
    by_cases h : s.mOff = g
    · rw [if_pos h, if_pos h, sum_three, saddle_rr]
      rw [sum_eq_zero (s := range n), zero_add]
      · simp only [zero_mul, ite_self, add_zero]
        refine sum_congr rfl fun k hk => ?_
        have hk := mem_range.1 hk
        rw [ext_mid s c asm k hk, saddle_rm _ _ _ _ _ _ hk]
        rfl
      · intro j hj
        rw [saddle_rl _ _ _ _ _ _ (mem_range.1 hj)]
        simp
    · rw [if_neg h, if_neg h]
  rw [hb, hm, sum_congr rfl h1, sum_congr rfl h2, h3, sum_add_distrib, sum_add_distrib]
  abel

theorem duoSum_aDuos (asm : List AsmIdx) (dd : List K) (A : Nat → Nat → K) (n g : Nat) :
    duoSum (aDuos asm dd A n) g = ∑ i ∈ range n, if (at' asm i).assem ∧ (at' asm i).idx = g then
      -∑ j ∈ range n, (if (at' asm j).assem then 0 else A i j * dd.getD j 0) else 0 := by
  rw [aDuos, duoSum_flatMap]
  refine sum_congr rfl fun i _ => ?_
  cases ha : (at' asm i).assem with
  | false => simp [duoSum]
  | true =>
    rw [if_pos rfl, duoSum_flatMap]
    by_cases h : (at' asm i).idx = g
    · rw [if_pos ⟨rfl, h⟩, ← sum_neg_distrib]
      refine sum_congr rfl fun j _ => ?_
      cases (at' asm j).assem <;> simp [duoSum, h]
    · rw [if_neg (fun e => h e.2)]
      refine sum_eq_zero fun j _ => ?_
      cases (at' asm j).assem <;> simp [duoSum, h]

theorem duoSum_bDuos (asm : List AsmIdx) (dd : List K) (B : Nat → Nat → K) (bOff cbsB n g : Nat) :
    duoSum (bDuos asm dd B bOff cbsB n) g = ∑ k ∈ range cbsB, if bOff + k = g then
      -∑ j ∈ range n, (if (at' asm j).assem then 0 else B k j * dd.getD j 0) else 0 := by
  rw [bDuos, duoSum_flatMap]
  refine sum_congr rfl fun k _ => ?_
  rw [duoSum_flatMap]
  by_cases h : bOff + k = g
  · rw [if_pos h, ← sum_neg_distrib]
    refine sum_congr rfl fun j _ => ?_
    cases (at' asm j).assem <;> simp [duoSum, h]
  · rw [if_neg h]
    refine sum_eq_zero fun j _ => ?_
    cases (at' asm j).assem <;> simp [duoSum, h]

/-- Right-hand side of the saddle point system of a cell. -/
def cellRhs (cbsA n : Nat) (full : Bool) (rhs : Nat → K) (i : Nat) : K :=
  if i < n ∧ (full = true ∨ i < cbsA) then rhs i else 0

theorem cellRhs_ge (cbsA n : Nat) (full : Bool) (rhs : Nat → K) (i : Nat) (h : n ≤ i) : cellRhs cbsA n full rhs i = 0 := by
  rw [cellRhs, if_neg (by omega)]

theorem cellRhs_cell (cbsA n : Nat) (full : Bool) (rhs : Nat → K) (i : Nat) (h : i < n) (h' : i < cbsA) :
    cellRhs cbsA n full rhs i = rhs i := by
  rw [cellRhs, if_pos ⟨h, .inr h'⟩]

theorem cellRhs_face (cbsA n : Nat) (rhs : Nat → K) (i : Nat) (h : cbsA ≤ i) : cellRhs cbsA n false rhs i = 0 := by
  rw [cellRhs, if_neg]
  rintro ⟨_, h1 | h1⟩
  · simp at h1
  · omega

theorem duoSum_load (s : Cfg) (c : Nat) (asm : List AsmIdx) (rhs : Nat → K) (full : Bool) (hn : s.cbsA ≤ asm.length)
    (hc : ∀ i < s.cbsA, asm.getD i ⟨0, false⟩ = ⟨c * s.cbsA + i, true⟩) (g : Nat) :
    duoSum (if full then fullLoad asm asm.length rhs else cellLoad s c rhs) g =
      ∑ i ∈ range asm.length, if (at' asm i).assem ∧ (at' asm i).idx = g then cellRhs s.cbsA asm.length full rhs i else 0 := by
  cases full with
  | true =>
    rw [if_pos rfl, fullLoad, duoSum_flatMap]
    refine sum_congr rfl fun i hi => ?_
    have hi := mem_range.1 hi
    cases ha : (at' asm i).assem <;> simp [duoSum, cellRhs, hi]
  | false =>
    rw [if_neg (by simp), cellLoad]
    obtain ⟨k, hk⟩ := Nat.exists_eq_add_of_le hn
    have e : ∀ m, duoSum ((List.range m).map fun i => (c * s.cbsA + i, rhs i)) g =
        ∑ i ∈ range m, if c * s.cbsA + i = g then rhs i else 0 := by
      intro m
      induction m with
      | zero => simp [duoSum]
      | succ m ih => rw [List.range_succ, List.map_append, duoSum_append, ih, sum_range_succ]; simp [duoSum]
    rw [e]
    conv_rhs => rw [hk, sum_range_add]
    rw [sum_eq_zero (s := range k), add_zero]
    · refine sum_congr rfl fun i hi => ?_
      have hi := mem_range.1 hi
      rw [at', hc i hi]
      simp only [true_and]
      rw [cellRhs_cell _ _ _ _ _ (by omega) hi]
    · intro i _
      rw [cellRhs_face _ _ _ _ (by omega)]
      simp

theorem duoSum_cell (s : Cfg) (c : Nat) (asm : List AsmIdx) (dd : List K) (A B : Nat → Nat → K) (mult rhs : Nat → K)
    (full : Bool) (hn : s.cbsA ≤ asm.length) (hc : ∀ i < s.cbsA, asm.getD i ⟨0, false⟩ = ⟨c * s.cbsA + i, true⟩) (g : Nat) :
    duoSum (aDuos asm dd A asm.length ++ bDuos asm dd B (s.bOff c) s.cbsB asm.length ++
        (if full then fullLoad asm asm.length rhs else cellLoad s c rhs)) g =
      duoSum (localDuos (extMap s c asm) (cellRhs s.cbsA asm.length full rhs) (fun i => ∑ j ∈ range asm.length,
        if (at' asm j).assem then 0 else saddle asm.length s.cbsB A B mult i j * dd.getD j 0)
        (asm.length + s.cbsB + 1)) g := by
  rw [duoSum_append, duoSum_append, duoSum_aDuos, duoSum_bDuos, duoSum_load s c asm rhs full hn hc, duoSum_local, sum_three]
  have h3 : (if ((extMap s c asm).getD (asm.length + s.cbsB) ⟨0, false⟩).assem ∧
      ((extMap s c asm).getD (asm.length + s.cbsB) ⟨0, false⟩).idx = g then
      cellRhs s.cbsA asm.length full rhs (asm.length + s.cbsB) - ∑ j ∈ range asm.length,
        (if (at' asm j).assem then 0 else saddle asm.length s.cbsB A B mult (asm.length + s.cbsB) j * dd.getD j 0) else 0) = 0 := by
    rw [cellRhs_ge _ _ _ _ _ (by omega), sum_eq_zero]
    · simp
    · intro j hj
      rw [saddle_rl _ _ _ _ _ _ (mem_range.1 hj)]
      simp
  have h2 : ∀ k ∈ range s.cbsB, (if ((extMap s c asm).getD (asm.length + k) ⟨0, false⟩).assem ∧
      ((extMap s c asm).getD (asm.length + k) ⟨0, false⟩).idx = g then
      cellRhs s.cbsA asm.length full rhs (asm.length + k) - ∑ j ∈ range asm.length,
        (if (at' asm j).assem then 0 else saddle asm.length s.cbsB A B mult (asm.length + k) j * dd.getD j 0) else 0) =
      if s.bOff c + k = g then -∑ j ∈ range asm.length, (if (at' asm j).assem then 0 else B k j * dd.getD j 0) else 0 := by
    intro k hk
    have hk := mem_range.1 hk
    rw [ext_mid s c asm k hk, cellRhs_ge _ _ _ _ _ (by omega), zero_sub]
    simp only [true_and]
    refine if_congr Iff.rfl ?_ rfl
    congr 1
    refine sum_congr rfl fun j hj => ?_
    rw [saddle_ml _ _ _ _ _ _ _ hk (mem_range.1 hj)]
  have h1 : ∀ i ∈ range asm.length, (if ((extMap s c asm).getD i ⟨0, false⟩).assem ∧
      ((extMap s c asm).getD i ⟨0, false⟩).idx = g then
      cellRhs s.cbsA asm.length full rhs i - ∑ j ∈ range asm.length,
        (if (at' asm j).assem then 0 else saddle asm.length s.cbsB A B mult i j * dd.getD j 0) else 0) =
      (if (at' asm i).assem ∧ (at' asm i).idx = g then
        -∑ j ∈ range asm.length, (if (at' asm j).assem then 0 else A i j * dd.getD j 0) else 0) +
      if (at' asm i).assem ∧ (at' asm i).idx = g then cellRhs s.cbsA asm.length full rhs i else 0 := by
    intro i hi
    have hi := mem_range.1 hi
    rw [ext_lt s c asm i hi]
    by_cases h : (at' asm i).assem ∧ (at' asm i).idx = g
    · rw [if_pos h, if_pos h, if_pos h]
      rw [sub_eq_neg_add]
      congr 2
      refine sum_congr rfl fun j hj => ?_
      rw [saddle_ll _ _ _ _ _ _ _ hi (mem_range.1 hj)]
    · rw [if_neg h, if_neg h, if_neg h, add_zero]
  rw [sum_congr rfl h1, sum_congr rfl h2, h3, sum_add_distrib]
  abel

/-- Local matrices of the right size on existing faces. -/
def GoodStokesCell (s : Cfg) (x : StokesCell K) : Prop :=
  (∀ f ∈ x.fcs, f < s.faces.length) ∧ x.size = s.cbsA + x.fcs.length * s.fbs

/-- Residual of the saddle point system of cell number `c`. -/
def cellRes (s : Cfg) (full : Bool) (w : Nat × Nat → K) (c : Nat) (x : StokesCell K) (y : Nat × Nat) : K :=
  dofResidual (cellDofs s c x.fcs) (saddle x.size s.cbsB x.A x.B x.mult) (cellRhs s.cbsA x.size full x.rhs) w y

theorem ext_range (s : Cfg) (l : List (Nat × Nat)) (asm : List AsmIdx) (h : GoodMap (tab s) l asm) (q : Nat)
    (hq : (asm.getD q ⟨0, false⟩).assem = true) : (asm.getD q ⟨0, false⟩).idx < s.size := by
  obtain ⟨x, _, x2, x3⟩ := goodMap_free _ _ _ h q hq
  rw [x3, ← numFree_tab]
  exact dofNumber_lt _ _ _ x2

/-- What a cell contributes. -/
structure CellOk (s : Cfg) (proj : Nat → Nat → K) (full : Bool) (c : Nat) (x : StokesCell K)
    (t : List (Nat × Nat × K)) (d : List (Nat × K)) : Prop where
  trip : ∀ y ∈ t, y.1 < s.size ∧ y.2.1 < s.size
  duo : ∀ y ∈ d, y.1 < s.size
  res : ∀ (u : Nat → K) (y : Nat × Nat), IsFreeDof (tab s) y.1 y.2 →
    rowSum t u (dofNumber (tab s) y.1 y.2) - duoSum d (dofNumber (tab s) y.1 y.2) =
      cellRes s full (dofValue (tab s) (val s proj) u) c x y

theorem mem_localTriplets (asm : List AsmIdx) (A : Nat → Nat → K) (n : Nat) (y : Nat × Nat × K)
    (h : y ∈ localTriplets asm A n) : ∃ i < n, ∃ j < n, (at' asm i).assem = true ∧ (at' asm j).assem = true ∧
      y = ((at' asm i).idx, (at' asm j).idx, A i j) := by
  simp only [localTriplets, List.mem_flatMap, List.mem_range] at h
  obtain ⟨i, hi, h⟩ := h
  cases h1 : (asm.getD i ⟨0, false⟩).assem with
  | false => rw [h1] at h; simp at h
  | true =>
    rw [h1, if_pos rfl] at h
    simp only [List.mem_flatMap, List.mem_range] at h
    obtain ⟨j, hj, h⟩ := h
    cases h2 : (asm.getD j ⟨0, false⟩).assem with
    | false => rw [h2] at h; simp at h
    | true =>
      rw [h2, if_pos rfl, List.mem_singleton] at h
      exact ⟨i, hi, j, hj, h1, h2, h⟩

theorem cellOk (s : Cfg) (t : List Nat) (ht : GoodTable s t) (proj : Nat → Nat → K) (full : Bool) (c : Nat) (hc : c < s.nC)
    (x : StokesCell K) (hx : GoodStokesCell s x) :
    ∃ a, localMap s t proj c x.fcs = .ok a ∧ a.1.length = x.size ∧
      CellOk s proj full c x
        (localTriplets a.1 x.A x.size ++ bTriplets a.1 x.B (s.bOff c) s.cbsB x.size ++
          mTriplets x.mult (s.bOff c) s.mOff s.cbsB)
        (aDuos a.1 a.2 x.A x.size ++ bDuos a.1 a.2 x.B (s.bOff c) s.cbsB x.size ++
          (if full then fullLoad a.1 x.size x.rhs else cellLoad s c x.rhs)) := by
  obtain ⟨a, a1, a2, a3, a4, a5, a6⟩ := localMap_spec s t ht proj c hc x.fcs hx.1
  have hsz : a.1.length = x.size := by rw [a3, hx.2]
  rw [← hsz]
  have hcb : s.cbsA ≤ a.1.length := by omega
  have hv : ∀ i < a.1.length, (at' a.1 i).assem = true → (at' a.1 i).idx < s.size := by
    intro i hi h
    rw [← ext_lt s c a.1 i hi] at h ⊢
    exact ext_range s _ _ a2 i h
  have hp : ∀ k < s.cbsB, s.bOff c + k < s.size := by
    intro k hk
    have := ext_range s _ _ a2 (a.1.length + k) (by rw [ext_mid s c a.1 k hk])
    rwa [ext_mid s c a.1 k hk] at this
  have hm : s.mOff < s.size := by
    have := ext_range s _ _ a2 (a.1.length + s.cbsB) (by rw [ext_last])
    rwa [ext_last] at this
  refine ⟨a, a1, rfl, ?_, ?_, ?_⟩
  · intro y hy
    simp only [List.mem_append] at hy
    rcases hy with (hy | hy) | hy
    · obtain ⟨i, hi, j, hj, h1, h2, rfl⟩ := mem_localTriplets _ _ _ _ hy
      exact ⟨hv i hi h1, hv j hj h2⟩
    · simp only [bTriplets, List.mem_flatMap, List.mem_range] at hy
      obtain ⟨k, hk, j, hj, hy⟩ := hy
      cases h2 : (at' a.1 j).assem with
      | false => rw [h2] at hy; simp at hy
      | true =>
        rw [h2, if_pos rfl] at hy
        simp only [List.mem_cons, List.not_mem_nil, or_false] at hy
        rcases hy with rfl | rfl
        · exact ⟨hp k hk, hv j hj h2⟩
        · exact ⟨hv j hj h2, hp k hk⟩
    · simp only [mTriplets, List.mem_flatMap, List.mem_range, List.mem_cons, List.not_mem_nil, or_false] at hy
      obtain ⟨k, hk, rfl | rfl⟩ := hy
      · exact ⟨hp k hk, hm⟩
      · exact ⟨hm, hp k hk⟩
  · intro y hy
    simp only [List.mem_append] at hy
    rcases hy with (hy | hy) | hy
    · simp only [aDuos, List.mem_flatMap, List.mem_range] at hy
      obtain ⟨i, hi, hy⟩ := hy
      cases h1 : (at' a.1 i).assem with
      | false => rw [h1] at hy; simp at hy
      | true =>
        rw [h1, if_pos rfl] at hy
        simp only [List.mem_flatMap, List.mem_range] at hy
        obtain ⟨j, hj, hy⟩ := hy
        cases h2 : (at' a.1 j).assem with
        | true => rw [h2] at hy; simp at hy
        | false =>
          rw [h2] at hy
          simp only [Bool.false_eq_true, if_false, List.mem_singleton] at hy
          subst hy
          exact hv i hi h1
    · simp only [bDuos, List.mem_flatMap, List.mem_range] at hy
      obtain ⟨k, hk, j, hj, hy⟩ := hy
      cases h2 : (at' a.1 j).assem with
      | true => rw [h2] at hy; simp at hy
      | false =>
        rw [h2] at hy
        simp only [Bool.false_eq_true, if_false, List.mem_singleton] at hy
        subst hy
        exact hp k hk
    · cases full with
      | true =>
        simp only [if_true, fullLoad, List.mem_flatMap, List.mem_range] at hy
        obtain ⟨i, hi, hy⟩ := hy
        cases h1 : (at' a.1 i).assem with
        | false => rw [h1] at hy; simp at hy
        | true =>
          rw [h1, if_pos rfl, List.mem_singleton] at hy
          subst hy
          exact hv i hi h1
      | false =>
        simp only [Bool.false_eq_true, if_false, cellLoad, List.mem_map, List.mem_range] at hy
        obtain ⟨i, hi, rfl⟩ := hy
        have := hv i (by omega) (by rw [at', a5 i hi])
        rwa [at', a5 i hi] at this
  · intro u y hy
    rw [rowSum_cell, duoSum_cell s c a.1 a.2 x.A x.B x.mult x.rhs full hcb a5, cellRes, ← hsz]
    rw [← a4]
    refine generic_residual _ _ _ a2 _ _ _ _ (fun p hp => ?_) u y hy
    rw [a4, sum_three]
    rw [sum_eq_zero (s := range s.cbsB), add_zero]
    · rw [ext_last]
      have : ∀ o : Option (Nat × Nat), (o.elim (0 : K) fun y => if (⟨s.mOff, true⟩ : AsmIdx).assem = true then 0 else
          saddle a.1.length s.cbsB x.A x.B x.mult p (a.1.length + s.cbsB) * val s proj y.1 y.2) = 0 := by
        intro o; cases o <;> simp
      rw [this, add_zero]
      refine sum_congr rfl fun j hj => ?_
      have hj := mem_range.1 hj
      rw [ext_lt s c a.1 j hj]
      have hjl : j < (cellDofs s c x.fcs).length := by omega
      rw [List.getElem?_eq_getElem hjl, Option.elim_some]
      cases h : (at' a.1 j).assem with
      | true => simp
      | false =>
        simp only [Bool.false_eq_true, if_false]
        rw [a6 j hj _ (List.getElem?_eq_getElem hjl) h]
    · intro k hk
      rw [ext_mid s c a.1 k (mem_range.1 hk)]
      cases (cellDofs s c x.fcs)[a.1.length + k]? <;> simp

/-- Sum of the residuals of the cells from number `c`. -/
def resFrom (s : Cfg) (full : Bool) (w : Nat × Nat → K) : Nat → List (StokesCell K) → Nat × Nat → K
  | _, [], _ => 0
  | c, x :: xs, y => cellRes s full w c x y + resFrom s full w (c + 1) xs y

theorem assembleCells_spec (s : Cfg) (t : List Nat) (ht : GoodTable s t) (proj : Nat → Nat → K) (full : Bool)
    (cells : List (StokesCell K)) (c : Nat) (hc : c + cells.length ≤ s.nC) (hx : ∀ x ∈ cells, GoodStokesCell s x) :
    ∃ a, assembleCells s t proj full c cells = .ok a ∧ (∀ y ∈ a.1, y.1 < s.size ∧ y.2.1 < s.size) ∧
      (∀ y ∈ a.2, y.1 < s.size) ∧ ∀ (u : Nat → K) (y : Nat × Nat), IsFreeDof (tab s) y.1 y.2 →
        rowSum a.1 u (dofNumber (tab s) y.1 y.2) - duoSum a.2 (dofNumber (tab s) y.1 y.2) =
          resFrom s full (dofValue (tab s) (val s proj) u) c cells y := by
  induction cells generalizing c with
  | nil => exact ⟨([], []), rfl, by simp, by simp, fun u y _ => by simp [rowSum, duoSum, resFrom]⟩
  | cons x xs ih =>
    obtain ⟨r, r1, r2, r3, r4⟩ := ih (c + 1) (by simp at hc; omega) fun y hy => hx y (by simp [hy])
    obtain ⟨a, a1, a2, a3⟩ := cellOk s t ht proj full c (by simp at hc; omega) x (hx x (by simp))
    refine ⟨_, by simp only [assembleCells, localSystem, a1, Outcome.bind_ok, if_pos a2, r1]; rfl, ?_, ?_, ?_⟩
    · intro y hy
      rcases List.mem_append.1 hy with h | h
      · exact a3.trip y h
      · exact r2 y h
    · intro y hy
      rcases List.mem_append.1 hy with h | h
      · exact a3.duo y h
      · exact r3 y h
    · intro u y hy
      rw [rowSum_append, duoSum_append, resFrom, ← a3.res u y hy, ← r4 u y hy]
      ring

/-- Dirichlet faces with all components prescribed. -/
def FullTypes (s : Cfg) : Prop :=
  ∀ f ∈ s.faces, f.1 = true → f.2 = DIRICHLET ∨ f.2 = CLAMPED ∨ (s.dim = 2 ∧ f.2 = DXDY)

theorem faceDofs_spec (dim m : Nat) (hd : dim ≠ 0) (fs : List (Bool × Nat))
    (h : ∀ f ∈ fs, f.1 = true → f.2 = DIRICHLET ∨ f.2 = CLAMPED ∨ (dim = 2 ∧ f.2 = DXDY)) :
    faceDofs dim (dim * m) fs = .ok (dim * m * (fs.map (·.1)).count false) := by
  induction fs with
  | nil => rfl
  | cons f fs ih =>
    obtain ⟨b, t⟩ := f
    have ih := ih fun g hg => h g (by simp [hg])
    cases b with
    | false =>
      simp only [faceDofs, Bool.false_eq_true, if_false, Outcome.bind_ok, ih, List.map_cons, List.count_cons_self,
        Nat.sub_zero]
      congr 1; ring
    | true =>
      have hi : imposedVector t (dim * m) dim = .ok (dim * m) := by
        rcases h (true, t) (by simp) rfl with e | e | ⟨e1, e⟩
        · simp only at e; subst e; simp [imposedVector, hd]
        · simp only at e; subst e; simp [imposedVector, hd, CLAMPED, DIRICHLET]
        · simp only at e; subst e; subst e1
          simp [imposedVector, DXDY, DIRICHLET, CLAMPED, DX, DY, DZ]
      simp only [faceDofs, if_true, hi, Outcome.bind_ok, ih, Nat.sub_self, Nat.zero_add, List.map_cons]
      simp

theorem construct_spec (s : Cfg) (hd : s.dim ≠ 0) (h : FullTypes s) : ∃ t, construct s = .ok t ∧ GoodTable s t := by
  obtain ⟨t, t1, t2, _, t4⟩ := buildTables_spec s.dir
  refine ⟨t.compress, ?_, by rw [t2, dir_length], t4⟩
  have e : faceDofs s.dim s.fbs s.faces = .ok (s.fbs * s.other) := by
    rw [other_eq]; exact faceDofs_spec s.dim s.m hd s.faces h
  simp only [construct, t1, Outcome.bind_ok, e, if_true]

theorem assembleStokes_spec (s : Cfg) (hd : s.dim ≠ 0) (h : FullTypes s) (proj : Nat → Nat → K) (full : Bool)
    (cells : List (StokesCell K)) (hn : cells.length = s.nC) (hx : ∀ x ∈ cells, GoodStokesCell s x) :
    ∃ A b, assembleStokes s proj full cells = .ok (A, b) ∧
      ∀ (u : Nat → K) (y : Nat × Nat), IsFreeDof (tab s) y.1 y.2 →
        (∑ j ∈ range s.size, A (dofNumber (tab s) y.1 y.2) j * u j) - b (dofNumber (tab s) y.1 y.2) =
          resFrom s full (dofValue (tab s) (val s proj) u) 0 cells y := by
  obtain ⟨t, t1, t2⟩ := construct_spec s hd h
  obtain ⟨a, a1, a2, a3, a4⟩ := assembleCells_spec s t t2 proj full cells 0 (by omega) hx
  obtain ⟨b, b1, b2⟩ := finish_spec s.size a.1 a.2 (fun _ => 0) a2 a3
  refine ⟨toMat a.1, b, ?_, fun u y hy => ?_⟩
  · simp only [assembleStokes, t1, Outcome.bind_ok, a1, b1]
  · rw [← a4 u y hy, toMat_apply _ _ (fun t ht => (a2 t ht).2), b2, zero_add]

/-- The two phases of the other class push the same. -/
theorem lhs_rhs_spec (s : Cfg) (t : List Nat) (proj : Nat → Nat → K) (cells : List (StokesCell K)) (c : Nat)
    (a : List (Nat × Nat × K) × List (Nat × K)) (ha : assembleCells s t proj true c cells = .ok a) :
    ∃ l r, lhsCells s t proj c cells = .ok l ∧ rhsCells s t proj c cells = .ok r ∧ l.1 = a.1 ∧
      (∀ y, (y ∈ l.2 ∨ y ∈ r) → y ∈ a.2) ∧ ∀ g, duoSum l.2 g + duoSum r g = duoSum a.2 g := by
  induction cells generalizing c a with
  | nil =>
    simp only [assembleCells, Outcome.ok.injEq] at ha
    subst ha
    exact ⟨([], []), [], rfl, rfl, rfl, by simp, by simp [duoSum]⟩
  | cons x xs ih =>
    simp only [assembleCells] at ha
    cases h1 : localSystem s t proj true c x with
    | throws e => rw [h1] at ha; simp at ha
    | ub e => rw [h1] at ha; simp at ha
    | ok b =>
      rw [h1, Outcome.bind_ok] at ha
      cases h2 : assembleCells s t proj true (c + 1) xs with
      | throws e => rw [h2] at ha; simp at ha
      | ub e => rw [h2] at ha; simp at ha
      | ok q =>
        rw [h2, Outcome.bind_ok, Outcome.ok.injEq] at ha
        obtain ⟨l, r, l1, r1, e1, e2, e3⟩ := ih (c + 1) q h2
        simp only [localSystem] at h1
        cases h3 : localMap s t proj c x.fcs with
        | throws e => rw [h3] at h1; simp at h1
        | ub e => rw [h3] at h1; simp at h1
        | ok m =>
          rw [h3, Outcome.bind_ok] at h1
          by_cases hl : m.1.length = x.size
          · rw [if_pos hl, Outcome.ok.injEq] at h1
            refine ⟨_, _, by simp only [lhsCells, h3, Outcome.bind_ok, if_pos hl, l1]; rfl,
              by simp only [rhsCells, h3, Outcome.bind_ok, if_pos hl, r1]; rfl, ?_, ?_, ?_⟩
            · rw [← ha, ← h1, e1]
            · rw [← ha, ← h1]
              simp only [if_true, List.mem_append]
              intro y hy
              rcases hy with ((hy | hy) | hy) | (hy | hy)
              · exact .inl (.inl (.inl hy))
              · exact .inl (.inl (.inr hy))
              · exact .inr (e2 y (.inl hy))
              · exact .inl (.inr hy)
              · exact .inr (e2 y (.inr hy))
            · intro g
              rw [← ha, ← h1]
              simp only [if_true, duoSum_append]
              rw [← e3 g]
              ring
          · rw [if_neg hl] at h1
            simp at h1

theorem assembleStokesAlg_spec (s : Cfg) (hd : s.dim ≠ 0) (h : FullTypes s) (proj : Nat → Nat → K)
    (cells : List (StokesCell K)) (hn : cells.length = s.nC) (hx : ∀ x ∈ cells, GoodStokesCell s x) :
    ∃ A b b', assembleStokes s proj true cells = .ok (A, b) ∧ assembleStokesAlg s proj cells = .ok (A, b') ∧
      ∀ g, b g = b' g := by
  obtain ⟨t, t1, t2⟩ := construct_spec s hd h
  obtain ⟨a, a1, a2, a3, a4⟩ := assembleCells_spec s t t2 proj true cells 0 (by omega) hx
  obtain ⟨l, r, l1, r1, e1, e2, e3⟩ := lhs_rhs_spec s t proj cells 0 a a1
  obtain ⟨b, b1, b2⟩ := finish_spec s.size a.1 a.2 (fun _ => 0) a2 a3
  obtain ⟨bl, bl1, bl2⟩ := finish_spec s.size l.1 l.2 (fun _ => 0) (by rw [e1]; exact a2)
    (fun y hy => a3 y (e2 y (.inl hy)))
  rw [e1] at bl1
  obtain ⟨br, br1, br2⟩ := applyDuos_spec s.size r (fun y hy => a3 y (e2 y (.inr hy))) fun _ => (0 : K)
  refine ⟨toMat a.1, b, fun i => br i + bl i, ?_, ?_, ?_⟩
  · simp only [assembleStokes, t1, Outcome.bind_ok, a1, b1]
  · simp only [assembleStokesAlg, t1, Outcome.bind_ok, l1, bl1, r1, br1, e1]
  · intro g
    simp only
    rw [b2, br2, bl2, ← e3 g]
    ring

/-! ### Values of a solution -/

theorem takeBlock (s : Cfg) (proj : Nat → Nat → K) (sol : List K) (hs : sol.length = s.size) (e n base : Nat)
    (h : (tab s)[e]? = some (n, fun _ => false)) (hn : ∀ i, dofNumber (tab s) e i = base + i) :
    vseg sol base n = .ok ((dofsOf (tab s) [e]).map (dofValue (tab s) (val s proj) fun j => sol.getD j 0)) := by
  have hle : base + n ≤ sol.length := by
    have := dofNumber_le (tab s) e n _ h (le_refl _)
    rwa [hn, numFree_tab, ← hs] at this
  have hl : dofsOf (tab s) [e] = (List.range n).map fun i => (e, i) := by simp [dofsOf, h]
  rw [vseg, if_pos hle, hl, List.map_map]
  congr 1
  apply List.ext_getElem
  · simp; omega
  · intro i h1 h2
    simp only [List.length_map, List.length_range] at h2
    have hlt : base + i < sol.length := by omega
    simp only [List.getElem_take, List.getElem_drop, List.getElem_map, List.getElem_range, Function.comp, dofValue, h,
      Option.elim_some, Bool.false_eq_true, if_false]
    rw [hn i, List.getD_eq_getElem?_getD, List.getElem?_eq_getElem hlt]
    rfl

theorem takeFaces_spec (s : Cfg) (t : List Nat) (ht : GoodTable s t) (proj : Nat → Nat → K) (sol : List K)
    (hs : sol.length = s.size) (fcs : List Nat) (hf : ∀ f ∈ fcs, f < s.faces.length) :
    takeFaces s t proj sol fcs = .ok ((dofsOf (tab s) (fcs.map (s.nC + ·))).map
      (dofValue (tab s) (val s proj) fun j => sol.getD j 0)) := by
  induction fcs with
  | nil => rfl
  | cons f fcs ih =>
    have ih := ih fun g hg => hf g (by simp [hg])
    have hfl := hf f (by simp)
    have hvf : vat s.faces f = .ok s.faces[f] := by simp [vat, hfl]
    have hdir : s.dir[f]? = some s.faces[f].1 := by simp [Cfg.dir, hfl]
    have htl : f < t.length := by rw [ht.1]; exact hfl
    have hvt : vat t f = .ok t[f] := by simp [vat, htl]
    obtain ⟨b1, b2⟩ := tab_face s f _ hdir
    have hl : dofsOf (tab s) ((f :: fcs).map (s.nC + ·)) =
        dofsOf (tab s) [s.nC + f] ++ dofsOf (tab s) (fcs.map (s.nC + ·)) := by
      rw [← dofsOf_append]; rfl
    rw [hl, List.map_append]
    simp only [takeFaces, hvf, Outcome.bind_ok, ih, hvt]
    cases hd : s.faces[f].1 with
    | true =>
      simp only [if_true, Outcome.bind_ok]
      rw [hd] at b1
      congr 2
      have hl1 : dofsOf (tab s) [s.nC + f] = (List.range s.fbs).map fun i => (s.nC + f, i) := by simp [dofsOf, b1]
      rw [hl1, List.map_map]
      refine List.map_congr_left fun i _ => ?_
      simp [dofValue, b1, val]
    | false =>
      rw [hd] at b1
      have htf := ht.2 f (by rw [hdir, hd])
      rw [List.getElem?_eq_getElem htl, Option.some.injEq] at htf
      simp only [Bool.false_eq_true, if_false]
      rw [takeBlock s proj sol hs (s.nC + f) s.fbs (s.cbsA * s.nC + t[f] * s.fbs) b1 (by rw [htf]; exact b2 hd)]
      simp only [Outcome.bind_ok]

theorem takeVelocity_spec (s : Cfg) (t : List Nat) (ht : GoodTable s t) (proj : Nat → Nat → K) (sol : List K)
    (hs : sol.length = s.size) (c : Nat) (hc : c < s.nC) (fcs : List Nat) (hf : ∀ f ∈ fcs, f < s.faces.length) :
    takeVelocity s t proj sol c fcs = .ok ((dofsOf (tab s) (c :: fcs.map (s.nC + ·))).map
      (dofValue (tab s) (val s proj) fun j => sol.getD j 0)) := by
  obtain ⟨c1, c2⟩ := tab_cell s c hc
  rw [takeVelocity, takeBlock s proj sol hs c s.cbsA (c * s.cbsA) c1 c2, Outcome.bind_ok,
    takeFaces_spec s t ht proj sol hs fcs hf, Outcome.bind_ok, ← List.map_append, ← dofsOf_append]
  rfl

theorem takePressure_spec (s : Cfg) (proj : Nat → Nat → K) (sol : List K) (hs : sol.length = s.size) (c : Nat)
    (hc : c < s.nC) :
    takePressure s sol c = .ok ((dofsOf (tab s) [s.nC + s.faces.length + c]).map
      (dofValue (tab s) (val s proj) fun j => sol.getD j 0)) := by
  obtain ⟨p1, p2⟩ := tab_pressure s c hc
  exact takeBlock s proj sol hs _ s.cbsB (s.bOff c) p1 p2

/-! ### Rows of the pressures and of the multiplier -/

theorem cellDofs_parts (s : Cfg) (c : Nat) (hc : c < s.nC) (fcs : List Nat) (hf : ∀ f ∈ fcs, f < s.faces.length) :
    ∃ n, (dofsOf (tab s) (c :: fcs.map (s.nC + ·))).length = n ∧ n = s.cbsA + fcs.length * s.fbs ∧
      (cellDofs s c fcs).length = n + s.cbsB + 1 ∧
      (∀ p < n, ∃ x, (cellDofs s c fcs)[p]? = some x ∧ (dofsOf (tab s) (c :: fcs.map (s.nC + ·)))[p]? = some x ∧
        x.1 < s.nC + s.faces.length) ∧
      (∀ k < s.cbsB, (cellDofs s c fcs)[n + k]? = some (s.nC + s.faces.length + c, k)) ∧
      (cellDofs s c fcs)[n + s.cbsB]? = some (s.nC + s.faces.length + s.nC, 0) := by
  obtain ⟨p1, _⟩ := tab_pressure s c hc
  obtain ⟨m1, _⟩ := tab_mult s
  obtain ⟨c1, _⟩ := tab_cell s c hc
  have hl : cellDofs s c fcs = dofsOf (tab s) (c :: fcs.map (s.nC + ·)) ++
      ((List.range s.cbsB).map (fun k => (s.nC + s.faces.length + c, k)) ++ [(s.nC + s.faces.length + s.nC, 0)]) := by
    have e1 : dofsOf (tab s) [s.nC + s.faces.length + c] = (List.range s.cbsB).map fun k => (s.nC + s.faces.length + c, k) := by
      simp [dofsOf, p1]
    have e2 : dofsOf (tab s) [s.nC + s.faces.length + s.nC] = [(s.nC + s.faces.length + s.nC, 0)] := by
      simp [dofsOf, m1]
    rw [← e1, ← e2, ← dofsOf_append, ← dofsOf_append]
    rfl
  have hlenf : (dofsOf (tab s) (fcs.map (s.nC + ·))).length = fcs.length * s.fbs := by
    clear hl
    induction fcs with
    | nil => simp [dofsOf]
    | cons f fcs ih =>
      have hfl := hf f (by simp)
      obtain ⟨b1, _⟩ := tab_face s f s.faces[f].1 (by simp [Cfg.dir, hfl])
      have e : dofsOf (tab s) ((f :: fcs).map (s.nC + ·)) =
        dofsOf (tab s) [s.nC + f] ++ dofsOf (tab s) (fcs.map (s.nC + ·)) := by rw [← dofsOf_append]; rfl
      rw [e, List.length_append, ih fun g hg => hf g (by simp [hg])]
      simp [dofsOf, b1]
      ring
  have hn : (dofsOf (tab s) (c :: fcs.map (s.nC + ·))).length = s.cbsA + fcs.length * s.fbs := by
    have e : dofsOf (tab s) (c :: fcs.map (s.nC + ·)) = dofsOf (tab s) [c] ++ dofsOf (tab s) (fcs.map (s.nC + ·)) := by
      rw [← dofsOf_append]; rfl
    rw [e, List.length_append, hlenf]
    simp [dofsOf, c1]
  refine ⟨_, rfl, hn, ?_, ?_, ?_, ?_⟩
  · rw [hl]; simp; ring
  · intro p hp
    refine ⟨_, by rw [hl, List.getElem?_append_left hp, List.getElem?_eq_getElem hp], List.getElem?_eq_getElem hp, ?_⟩
    have hmem := List.getElem_mem hp
    simp only [dofsOf, List.mem_flatMap, List.mem_cons, List.mem_map] at hmem
    obtain ⟨e, he, i, _, hi⟩ := hmem
    have hx1 : (dofsOf (tab s) (c :: fcs.map (s.nC + ·)))[p].1 = e := by
      simp only [dofsOf, ← hi]
    rw [hx1]
    rcases he with rfl | ⟨f, hf1, rfl⟩
    · omega
    · have := hf f hf1; omega
  · intro k hk
    rw [hl, List.getElem?_append_right (by omega), Nat.add_sub_cancel_left, List.getElem?_append_left (by simpa using hk)]
    simp [List.getElem?_range hk]
  · rw [hl, List.getElem?_append_right (by omega), Nat.add_sub_cancel_left, List.getElem?_append_right (by simp)]
    simp

/-- `Σ_j B(k, j) v_j + mult(k) λ` with the values `w` of the coefficients of the cell. -/
theorem cellRes_pressure (s : Cfg) (full : Bool) (w : Nat × Nat → K) (c c' k : Nat) (hc : c < s.nC) (hc' : c' < s.nC)
    (hk : k < s.cbsB) (x : StokesCell K) (hx : GoodStokesCell s x) :
    cellRes s full w c x (s.nC + s.faces.length + c', k) = if c = c' then
      (∑ j ∈ range x.size, x.B k j * ((dofsOf (tab s) (c :: x.fcs.map (s.nC + ·))).map w).getD j 0) +
        x.mult k * w (s.nC + s.faces.length + s.nC, 0) else 0 := by
  obtain ⟨n, n1, n2, n3, n4, n5, n6⟩ := cellDofs_parts s c hc x.fcs hx.1
  have hsz : x.size = n := by rw [hx.2, n2]
  rw [cellRes, dofResidual, n3, sum_three, n6, hsz]
  rw [if_neg (by simp only [Option.some.injEq, Prod.mk.injEq]; omega), add_zero, sum_eq_zero (s := range n), zero_add]
  · by_cases h : c = c'
    · subst h
      rw [if_pos rfl, sum_eq_single k]
      · rw [n5 k hk, if_pos rfl, cellRhs_ge _ _ _ _ _ (by omega), sub_zero, sum_three, n6, saddle_mr _ _ _ _ _ _ hk]
        rw [sum_eq_zero (s := range s.cbsB), add_zero]
        · congr 1
          refine sum_congr rfl fun j hj => ?_
          have hj := mem_range.1 hj
          obtain ⟨y, y1, y2, _⟩ := n4 j hj
          rw [saddle_ml _ _ _ _ _ _ _ hk hj, y1, List.getD_eq_getElem?_getD, List.getElem?_map, y2]
          rfl
        · intro l hl
          rw [saddle_mm _ _ _ _ _ _ _ hk (mem_range.1 hl), zero_mul]
      · intro l hl hlk
        rw [n5 l (mem_range.1 hl), if_neg]
        simp only [Option.some.injEq, Prod.mk.injEq]
        exact fun e => hlk e.2
      · intro h; exact absurd (mem_range.2 hk) h
    · rw [if_neg h]
      refine sum_eq_zero fun l hl => ?_
      rw [n5 l (mem_range.1 hl), if_neg]
      simp only [Option.some.injEq, Prod.mk.injEq]
      omega
  · intro p hp
    obtain ⟨y, y1, _, y3⟩ := n4 p (mem_range.1 hp)
    rw [y1, if_neg]
    intro e
    simp only [Option.some.injEq] at e
    rw [e] at y3
    simp only at y3
    omega

theorem cellRes_mult (s : Cfg) (full : Bool) (w : Nat × Nat → K) (c : Nat) (hc : c < s.nC) (x : StokesCell K)
    (hx : GoodStokesCell s x) :
    cellRes s full w c x (s.nC + s.faces.length + s.nC, 0) =
      ∑ k ∈ range s.cbsB, x.mult k * w (s.nC + s.faces.length + c, k) := by
  obtain ⟨n, n1, n2, n3, n4, n5, n6⟩ := cellDofs_parts s c hc x.fcs hx.1
  have hsz : x.size = n := by rw [hx.2, n2]
  rw [cellRes, dofResidual, n3, sum_three, n6, hsz, if_pos rfl, sum_eq_zero (s := range n), zero_add,
    sum_eq_zero (s := range s.cbsB), zero_add, cellRhs_ge _ _ _ _ _ (by omega), sub_zero, sum_three, saddle_rr, zero_mul,
    add_zero, sum_eq_zero (s := range n), zero_add]
  · refine sum_congr rfl fun k hk => ?_
    have hk := mem_range.1 hk
    rw [saddle_rm _ _ _ _ _ _ hk, n5 k hk]
    rfl
  · intro j hj
    rw [saddle_rl _ _ _ _ _ _ (mem_range.1 hj), zero_mul]
  · intro l hl
    rw [n5 l (mem_range.1 hl), if_neg]
    simp only [Option.some.injEq, Prod.mk.injEq]
    omega
  · intro p hp
    obtain ⟨y, y1, _, y3⟩ := n4 p (mem_range.1 hp)
    rw [y1, if_neg]
    intro e
    simp only [Option.some.injEq] at e
    rw [e] at y3
    simp only at y3
    omega

theorem resFrom_pressure (s : Cfg) (full : Bool) (w : Nat × Nat → K) (k : Nat) (hk : k < s.cbsB)
    (cells : List (StokesCell K)) (c0 : Nat) (hc : c0 + cells.length ≤ s.nC) (hx : ∀ x ∈ cells, GoodStokesCell s x)
    (c : Nat) (x : StokesCell K) (hcx : cells[c]? = some x) :
    resFrom s full w c0 cells (s.nC + s.faces.length + (c0 + c), k) =
      (∑ j ∈ range x.size, x.B k j * ((dofsOf (tab s) ((c0 + c) :: x.fcs.map (s.nC + ·))).map w).getD j 0) +
        x.mult k * w (s.nC + s.faces.length + s.nC, 0) := by
  have hzero : ∀ (cells : List (StokesCell K)) (c0 c' : Nat), c0 + cells.length ≤ s.nC →
      (∀ x ∈ cells, GoodStokesCell s x) → c' < c0 →
      resFrom s full w c0 cells (s.nC + s.faces.length + c', k) = 0 := by
    intro cells
    induction cells with
    | nil => intros; rfl
    | cons x xs ih =>
      intro c0 c' h1 h2 h3
      simp only [List.length_cons] at h1
      rw [resFrom, cellRes_pressure s full w c0 c' k (by omega) (by omega) hk x (h2 x (by simp)), if_neg (by omega),
        ih (c0 + 1) c' (by omega) (fun y hy => h2 y (by simp [hy])) (by omega), add_zero]
  induction cells generalizing c0 c with
  | nil => simp at hcx
  | cons y ys ih =>
    simp only [List.length_cons] at hc
    rw [resFrom, cellRes_pressure s full w c0 (c0 + c) k (by omega) (by
      have := (List.getElem?_eq_some_iff.1 hcx).1
      simp only [List.length_cons] at this
      omega) hk y (hx y (by simp))]
    cases c with
    | zero =>
      simp at hcx; subst hcx
      rw [if_pos (by omega), hzero ys (c0 + 1) _ (by omega) (fun y hy => hx y (by simp [hy])) (by omega), add_zero]
      rfl
    | succ c =>
      rw [if_neg (by omega), zero_add]
      have := ih (c0 + 1) (by omega) (fun y hy => hx y (by simp [hy])) c (by simpa using hcx)
      rw [show c0 + (c + 1) = c0 + 1 + c by omega]
      exact this

/-- Sum over the cells of the weighted pressures. -/
def meanFrom (s : Cfg) (w : Nat × Nat → K) : Nat → List (StokesCell K) → K
  | _, [] => 0
  | c, x :: xs => ∑ k ∈ range s.cbsB, x.mult k * w (s.nC + s.faces.length + c, k) + meanFrom s w (c + 1) xs

theorem resFrom_mult (s : Cfg) (full : Bool) (w : Nat × Nat → K) (cells : List (StokesCell K)) (c0 : Nat)
    (hc : c0 + cells.length ≤ s.nC) (hx : ∀ x ∈ cells, GoodStokesCell s x) :
    resFrom s full w c0 cells (s.nC + s.faces.length + s.nC, 0) = meanFrom s w c0 cells := by
  induction cells generalizing c0 with
  | nil => rfl
  | cons x xs ih =>
    simp only [List.length_cons] at hc
    rw [resFrom, meanFrom, cellRes_mult s full w c0 (by omega) x (hx x (by simp)),
      ih (c0 + 1) (by omega) fun y hy => hx y (by simp [hy])]

theorem meanFrom_eq (s : Cfg) (w : Nat × Nat → K) (cells : List (StokesCell K)) (c0 : Nat) :
    meanFrom s w c0 cells = ∑ c ∈ range cells.length, (cells[c]?).elim 0 fun x =>
      ∑ k ∈ range s.cbsB, x.mult k * w (s.nC + s.faces.length + (c0 + c), k) := by
  induction cells generalizing c0 with
  | nil => simp [meanFrom]
  | cons x xs ih =>
    rw [meanFrom, ih, List.length_cons, Finset.sum_range_succ', add_comm]
    congr 1
    apply Finset.sum_congr rfl
    intro c _
    rw [List.getElem?_cons_succ, Nat.add_assoc c0 1 c, Nat.add_comm 1 c]

/-- The pressures of a cell, by number. -/
theorem pressure_getD (s : Cfg) (w : Nat × Nat → K) (c : Nat) (hc : c < s.nC) (k : Nat) (hk : k < s.cbsB) :
    ((dofsOf (tab s) [s.nC + s.faces.length + c]).map w).getD k 0 = w (s.nC + s.faces.length + c, k) := by
  have hl : dofsOf (tab s) [s.nC + s.faces.length + c] =
      (List.range s.cbsB).map fun i => (s.nC + s.faces.length + c, i) := by
    simp [dofsOf, (tab_pressure s c hc).1]
  rw [hl, List.getD_eq_getElem?_getD]
  simp [hk]

end Verif.StokesAsm
