import Verif.Lemmas.Heat
import Verif.Lemmas.HhoVector
import Verif.Props.Nitsche
/-!
Lemmas for steady polynomial solutions of the heat equation program.
-/
namespace Verif.Lemmas.Heat
open Finset Verif.Hho Verif.Spec.Hho Verif.Lemmas.Hho Verif.Nitsche Verif.Spec.Nitsche Verif.Lemmas.Nitsche Verif.Heat
  Verif.Spec.Heat LocalMatrix

variable {K P : Type} [Field K] {S : Solver K} {c : Cfg P K}

theorem facesDofs_eq {k fbs : Nat} (fs : List (BFace P K)) (h : ∀ f ∈ fs, (f.basis k).size = fbs) :
    facesDofs (uniform k (fs.map BFace.toFace)) = fs.length * fbs := by
  induction fs with
  | nil => simp [uniform, facesDofs]
  | cons f fs ih =>
    rw [facesDofs_uniform_cons, h f List.mem_cons_self, ih fun f hf => h f (List.mem_cons_of_mem _ hf), List.length_cons]
    ring

theorem localSize_eq (hw : WellFormed c) {ci : Nat} (hc : ci < c.nc) : localSize c (c.cell ci) =
    ((c.cell ci).elem.basis c.k).size + facesDofs (uniform c.k ((c.cell ci).faces.map BFace.toFace)) := by
  rw [facesDofs_eq _ (hw.face ci hc), hw.cell ci hc]; rfl

/-- The load of the source. -/
theorem load_cell (hw : WellFormed c) {ci : Nat} (hc : ci < c.nc) (v : Nat → K) :
    load (localSize c (c.cell ci)) (setSegment (fun _ => 0) 0 c.cbs (rhsOf (c.cell ci).elem c.k 1 ((c.cell ci).elem.basis c.k) c.f))
      (onCell c ci v) = quad ((c.cell ci).elem.integrate (2 * (c.k + 1))) fun x =>
        c.f x * evalFn ((c.cell ci).elem.basis c.k) (onCell c ci v) x := by
  unfold load localSize
  rw [sum_range_add]
  have z : ∑ x ∈ range ((c.cell ci).faces.length * c.fbs), setSegment (fun _ => 0) 0 c.cbs
      (rhsOf (c.cell ci).elem c.k 1 ((c.cell ci).elem.basis c.k) c.f) (c.cbs + x) * onCell c ci v (c.cbs + x) = 0 :=
    sum_eq_zero fun x _ => by
      unfold setSegment
      rw [if_neg (by omega), zero_mul]
  rw [z, add_zero]
  unfold evalFn
  rw [hw.cell ci hc]
  simp only [mul_sum]
  rw [quad_sum]
  refine sum_congr rfl fun i hi => ?_
  have hi := mem_range.1 hi
  unfold setSegment
  rw [if_pos (by omega), rhsOf_eq, Nat.sub_zero, mul_comm, ← quad_mul]
  exact quad_congr fun q _ => by ring

/-- The form of the reconstruction on the interpolate of a polynomial whose negative Laplacian is `f`. -/
theorem form_lap {d N : Nat} {cell : Elem P K} {faces : List (Face P K)} (C : PolyCell d cell faces N) (S : Solver K)
    {rd cd fd : Nat} (hcd : cd ≤ rd) (hcd' : rd ≤ cd + 2) (hfd : rd ≤ fd + 1) (hN : 2 * rd ≤ N) (hNf : rd + fd ≤ N)
    (hG : Green C none rd cd) (hn : Nonsing ((cell.basis rd).size - 1) (lapLhs d none (cell.basis rd) rd cell))
    {a u : Nat → K} (hu : IsInterp C cd (uniform fd faces) (evalFn (cell.basis rd) a) u) {f : P → K} {gu : P → Nat → K}
    (hg : ∀ x, ∀ e < d, gu x e = evalGrad (cell.basis rd) a x e) (v : Nat → K)
    (hf : C.IT (fun x => dot d (gu x) (evalGrad (cell.basis cd) v x)) =
      C.IT (fun x => f x * evalFn (cell.basis cd) v x) +
      (faces.map fun g => C.IF g fun x => dot d (gu x) g.normal * evalFn (cell.basis cd) v x).sum) :
    form ((cell.basis cd).size + facesDofs (uniform fd faces)) (laplacian d none false S rd cd fd cell faces).2 v u =
      C.IT (fun x => f x * evalFn (cell.basis cd) v x) +
      faceSum (fun g k o => C.IF g fun x => dot d (gu x) g.normal * evalFn (g.basis k) (seg o v) x) (uniform fd faces)
        (cell.basis cd).size := by
  have hop := Props.HhoLaplacian.c82_consistency C S (tens := none) trivial hcd hcd' hfd hN hNf hG hn hu
  have h1 : form ((cell.basis cd).size + facesDofs (uniform fd faces)) (laplacian d none false S rd cd fd cell faces).2 v u =
      ∑ k ∈ range ((cell.basis rd).size - 1), a (k + 1) * app ((cell.basis cd).size + facesDofs (uniform fd faces))
        (lapRhs d none false S (cell.basis rd) rd cd fd cell faces) v k := by
    unfold laplacian laplacianWith operData at hop ⊢
    rw [form_mul_trans]
    refine sum_congr rfl fun k hk => ?_
    rw [hop k (mem_range.1 hk), mul_comm]
  have hfl : ∀ (x : P) (b : Nat → K), ∑ k ∈ range ((cell.basis rd).size - 1), a (k + 1) *
      dot d (rflux d none (cell.basis rd) x k) b = dot d (gu x) b := by
    intro x b
    unfold rflux
    rw [flux_sum]
    unfold dot
    refine sum_congr rfl fun e he => ?_
    congr 1
    simp only [fluxOf]
    rw [hg x e (mem_range.1 he), ← evalGradTail_eq C]
    rfl
  rw [h1, sum_congr rfl fun k hk => by
      rw [lapRhs_exact C S hcd hN hNf v (by have := mem_range.1 hk; omega), mul_add],
    sum_add_distrib, ← IT_sum]
  simp only [hfl]
  rw [hf]
  have h2 : ∑ k ∈ range ((cell.basis rd).size - 1), a (k + 1) *
      faceSum (fun g kk o => C.IF g fun x => fluxN d none (cell.basis rd) g.normal x k *
        (evalFn (g.basis kk) (seg o v) x - evalFn (cell.basis cd) v x)) (uniform fd faces) (cell.basis cd).size =
      faceSum (fun g kk o => (C.IF g fun x => dot d (gu x) g.normal * evalFn (g.basis kk) (seg o v) x) - C.IF g fun x =>
          dot d (gu x) g.normal * evalFn (cell.basis cd) v x) (uniform fd faces) (cell.basis cd).size := by
    simp only [← faceSum_mul]
    rw [← faceSum_sum]
    refine faceSum_congr (fun g kk o _ => ?_) _
    rw [← IF_sum, ← IF_sub]
    congr 1
    funext x
    rw [← hfl x g.normal, sum_mul, sum_mul, ← sum_sub_distrib]
    refine sum_congr rfl fun k _ => ?_
    unfold fluxN
    ring
  rw [h2, faceSum_sub, faceSum_uniform]
  ring

/-- All faces are those on the boundary and those inside. -/
theorem faceSum_split {k fbs : Nat} (h : Face P K → Nat → K) (fs : List (BFace P K)) (hs : ∀ f ∈ fs, (f.basis k).size = fbs)
    (off : Nat) : ∀ j, faceSum (fun f _ o => h f o) (uniform k (fs.map BFace.toFace)) (off + j * fbs) =
      bndSum k (fun f o => h f.toFace o) fs (off + j * fbs) + innerSum (fun f j => h f.toFace (off + j * fbs)) fs j := by
  induction fs with
  | nil => intro j; simp [faceSum, uniform, bndSum, innerSum]
  | cons f fs ih =>
    intro j
    have e : off + j * fbs + (f.basis k).size = off + (j + 1) * fbs := by rw [hs f List.mem_cons_self]; ring
    have := ih (fun f hf => hs f (List.mem_cons_of_mem _ hf)) (j + 1)
    rw [List.map_cons, uniform_cons]
    simp only [faceSum, bndSum, innerSum]
    rw [e, this]
    split_ifs <;> ring

theorem innerSum_fin (h : BFace P K → Nat → K) (fs : List (BFace P K)) : ∀ m,
    innerSum h fs m = ∑ j : Fin fs.length, if fs[j].boundary = true then 0 else h fs[j] (m + j) := by
  induction fs with
  | nil => intro m; simp [innerSum]
  | cons f fs ih =>
    intro m
    rw [innerSum, ih (m + 1)]
    simp only [List.length_cons]
    rw [Fin.sum_univ_succ]
    simp only [Fin.getElem_fin, Fin.val_zero, List.getElem_cons_zero, Fin.val_succ, List.getElem_cons_succ, Nat.add_zero]
    congr 1
    refine sum_congr rfl fun j _ => ?_
    rw [show m + 1 + (j : Nat) = m + (j + 1) by omega]

theorem innerSum_congr {h h' : BFace P K → Nat → K} {fs : List (BFace P K)} (e : ∀ f ∈ fs, ∀ j, h f j = h' f j) :
    ∀ j, innerSum h fs j = innerSum h' fs j := by
  induction fs with
  | nil => intro j; rfl
  | cons f fs ih =>
    intro j
    rw [innerSum, innerSum, e f List.mem_cons_self, ih fun f hf => e f (List.mem_cons_of_mem _ hf)]

/-- On a steady cell what is left are the fluxes through the faces inside the domain. -/
theorem steady_cell (hw : WellFormed c) {ci N : Nat} (hc : ci < c.nc) {gu : P → Nat → K} {u : Nat → K}
    (h : SteadyCell c N gu u ci) (v : Nat → K) :
    form (localSize c (c.cell ci)) (weak S c (c.cell ci)).1 (onCell c ci v) (onCell c ci u) =
      load (localSize c (c.cell ci)) (weak S c (c.cell ci)).2 (onCell c ci v) +
        innerSum (fun f j => quad (f.integrate (2 * (c.k + 1))) fun x => dot c.d (gu x) f.normal *
          evalFn (f.basis c.k) (seg (c.cbs + j * c.fbs) (onCell c ci v)) x) (c.cell ci).faces 0 := by
  obtain ⟨C, hN, hG, hn, hmT, hmF, ⟨a, ha, hg⟩, hfV, hf, hI⟩ := h
  have hga : c.g = evalFn ((c.cell ci).elem.basis (c.k + 1)) a := funext ha
  rw [hga] at hI
  have hs := hw.face ci hc
  have hsz := localSize_eq hw hc
  have hcb := hw.cell ci hc
  have key := Props.Nitsche.c178_consistent (d := c.d) (cell := (c.cell ci).elem) (faces := (c.cell ci).faces) C S (rd := c.k + 1) (cd := c.k)
    (fd := c.k) hs (by omega) (by omega) (by omega) (by omega) hN hG hn hI
    (addMat (laplacian c.d none false S (c.k + 1) c.k c.k (c.cell ci).elem ((c.cell ci).faces.map BFace.toFace)).2
      (hho S true (c.k + 1) c.k c.k (c.cell ci).elem
        (laplacian c.d none false S (c.k + 1) c.k c.k (c.cell ci).elem ((c.cell ci).faces.map BFace.toFace)).1 ((c.cell ci).faces.map BFace.toFace)))
    (setSegment (fun _ => 0) 0 c.cbs (rhsOf (c.cell ci).elem c.k 1 ((c.cell ci).elem.basis c.k) c.f)) c.pen (onCell c ci v)
  dsimp only at key
  rw [← hga] at key
  have hE := Props.HhoStab.c85_local_energy C S true (tens := none) trivial (rd := c.k + 1) (cd := c.k) (fd := c.k) (by omega)
    (by omega) (by omega) hN (by omega) (by omega) hG hn hmT hmF hI (onCell c ci v)
  dsimp only at hE
  have hL := form_lap C S (rd := c.k + 1) (cd := c.k) (fd := c.k) (by omega) (by omega) (by omega) hN (by omega) hG hn hI hg
    (onCell c ci v) (hf _)
  have hld := load_cell hw hc v
  have hq : quad ((c.cell ci).elem.integrate (2 * (c.k + 1))) (fun x => c.f x *
      evalFn ((c.cell ci).elem.basis c.k) (onCell c ci v) x) =
      C.IT (fun x => c.f x * evalFn ((c.cell ci).elem.basis c.k) (onCell c ci v) x) :=
    cell_quad C (n := c.k + c.k) (by omega) hN (C.mul hfV (evalFn_mem C c.k _))
  rw [hq] at hld
  have hsp := faceSum_split (k := c.k) (fbs := c.fbs) (fun g o => C.IF g fun x => dot c.d (gu x) g.normal *
    evalFn (g.basis c.k) (seg o (onCell c ci v)) x) (c.cell ci).faces hs c.cbs 0
  rw [Nat.zero_mul, Nat.add_zero] at hsp
  have hfs : faceSum (fun g k o => C.IF g fun x => dot c.d (gu x) g.normal * evalFn (g.basis k) (seg o (onCell c ci v)) x)
      (uniform c.k ((c.cell ci).faces.map BFace.toFace)) ((c.cell ci).elem.basis c.k).size =
      faceSum (fun g _ o => C.IF g fun x => dot c.d (gu x) g.normal * evalFn (g.basis c.k) (seg o (onCell c ci v)) x)
      (uniform c.k ((c.cell ci).faces.map BFace.toFace)) c.cbs := by
    rw [hcb]
    refine faceSum_congr (fun g k o hm => ?_) _
    obtain ⟨-, rfl⟩ := mem_uniform hm
    rfl
  have hdot : ∀ (x : P) (m : Nat → K), dot c.d (evalGrad ((c.cell ci).elem.basis (c.k + 1)) a x) m = dot c.d (gu x) m := fun x m =>
    sum_congr rfl fun e he => by rw [hg x e (mem_range.1 he)]
  simp only [hdot] at key
  have hin : innerSum (fun f j => C.IF f.toFace fun x => dot c.d (gu x) f.normal *
      evalFn (f.basis c.k) (seg (c.cbs + j * c.fbs) (onCell c ci v)) x) (c.cell ci).faces 0 =
      innerSum (fun f j => quad (f.integrate (2 * (c.k + 1))) fun x => dot c.d (gu x) f.normal *
          evalFn (f.basis c.k) (seg (c.cbs + j * c.fbs) (onCell c ci v)) x) (c.cell ci).faces 0 := by
    refine innerSum_congr (fun f hfm j => ?_) 0
    have hfm' : f.toFace ∈ (c.cell ci).faces.map BFace.toFace := List.mem_map_of_mem hfm
    have hmem : (fun x => dot c.d (gu x) f.normal) ∈ C.V (c.k + 1 - 1) := by
      have : (fun x => dot c.d (gu x) f.normal) = fun x => dot c.d (evalGrad ((c.cell ci).elem.basis (c.k + 1)) a x) f.normal :=
        funext fun x => (hdot x _).symm
      rw [this]
      exact sum_mem' C fun e he => smul_mem_right C _ (evalGrad_mem C (c.k + 1) a (mem_range.1 he))
    exact (face_quad C hfm' (n := c.k + 1 - 1 + c.k) (by omega) hN
      (OnV.mul C (OnV.of_mem C hmem) (OnV.evalFb C hfm' c.k _))).symm
  rw [← hin]
  rw [hE, hL, hfs, hsp, ← hsz, hld, hcb] at key
  change form (localSize c (c.cell ci)) (weak S c (c.cell ci)).1 (onCell c ci v) (onCell c ci u) -
    load (localSize c (c.cell ci)) (weak S c (c.cell ci)).2 (onCell c ci v) = _ at key
  linear_combination key

/-- The fluxes inside the domain cancel. -/
theorem inner_cancel (hw : WellFormed c) (hm : Matching c) (gu : P → Nat → K) (v : Nat → K) (n : Nat) :
    ∑ ci ∈ range c.nc, innerSum (fun f j => quad (f.integrate n) fun x => dot c.d (gu x) f.normal *
      evalFn (f.basis c.k) (seg (c.cbs + j * c.fbs) (onCell c ci v)) x) (c.cell ci).faces 0 = 0 := by
  obtain ⟨F, bd, hF, hc⟩ := hm
  set Q : Nat → Nat → K := fun i e => if bd i = true then 0 else quad ((F i).integrate n) fun x => gu x e *
    evalFn ((F i).basis c.k) (seg (c.cbs * c.nc + c.fbs * i) v) x with hQ
  have h1 : ∀ ci < c.nc, innerSum (fun f j => quad (f.integrate n) fun x => dot c.d (gu x) f.normal *
      evalFn (f.basis c.k) (seg (c.cbs + j * c.fbs) (onCell c ci v)) x) (c.cell ci).faces 0 =
      ∑ j : Fin (c.cell ci).faces.length, ∑ i ∈ range c.nf, ∑ e ∈ range c.d,
        Q i e * if (c.cell ci).ids.getD j 0 = i then (c.cell ci).faces[j].normal e else 0 := by
    intro ci hci
    rw [innerSum_fin]
    refine sum_congr rfl fun j _ => ?_
    obtain ⟨e1, e2⟩ := hF ci hci j j.2
    set id := (c.cell ci).ids.getD j 0 with hid
    have hlt : id < c.nf := by
      have h2 : (j : Nat) < (c.cell ci).ids.length := by rw [hw.len ci hci]; exact j.2
      rw [hid, List.getD_eq_getElem?_getD, List.getElem?_eq_getElem h2, Option.getD_some]
      exact hw.ids ci hci _ (List.getElem_mem h2)
    rw [sum_eq_single id (fun i _ hi => sum_eq_zero fun e _ => by rw [if_neg (Ne.symm hi), mul_zero])
      (fun h => absurd (mem_range.2 hlt) h)]
    simp only [if_true]
    simp only [Fin.getElem_fin]
    rw [e2]
    by_cases hb : bd id = true
    · simp [hQ, hb]
    · rw [if_neg hb]
      have hsz : ((F id).basis c.k).size = c.fbs := by
        rw [← e1]; exact hw.face ci hci _ (List.getElem_mem _)
      have hev : ∀ x, evalFn ((F id).basis c.k) (seg (c.cbs + (0 + j) * c.fbs) (onCell c ci v)) x =
          evalFn ((F id).basis c.k) (seg (c.cbs * c.nc + c.fbs * id) v) x := by
        intro x
        refine sum_congr rfl fun i hi => ?_
        have hi := mem_range.1 hi
        rw [hsz] at hi
        congr 1
        simp only [seg, onCell]
        rw [if_neg (by omega), show c.cbs + (0 + (j : Nat)) * c.fbs + i - c.cbs = i + c.fbs * j by
          rw [Nat.zero_add, Nat.mul_comm]; omega, Nat.add_mul_div_left _ _ (by omega), Nat.div_eq_of_lt hi,
          Nat.add_mul_mod_self_left, Nat.mod_eq_of_lt hi, Nat.zero_add]
      have e1' : (c.cell ci).faces[(j : Nat)].toFace.toElem = F id := e1
      rw [show (c.cell ci).faces[(j : Nat)].toFace.toElem.integrate n = (F id).integrate n by rw [e1']]
      simp only [hQ, if_neg hb]
      have : ∀ x, dot c.d (gu x) (c.cell ci).faces[(j : Nat)].normal *
          evalFn ((c.cell ci).faces[(j : Nat)].basis c.k) (seg (c.cbs + (0 + j) * c.fbs) (onCell c ci v)) x =
          ∑ e ∈ range c.d, (c.cell ci).faces[(j : Nat)].normal e *
            (gu x e * evalFn ((F id).basis c.k) (seg (c.cbs * c.nc + c.fbs * id) v) x) := by
        intro x
        rw [show (c.cell ci).faces[(j : Nat)].toFace.toElem.basis c.k = (F id).basis c.k by rw [e1'], hev]
        unfold dot
        rw [sum_mul]
        exact sum_congr rfl fun e _ => by ring
      simp only [this]
      rw [quad_sum]
      refine sum_congr rfl fun e _ => ?_
      rw [quad_mul, mul_comm]
  rw [sum_congr rfl fun ci hci => h1 ci (mem_range.1 hci)]
  have h2 : ∀ ci, (∑ j : Fin (c.cell ci).faces.length, ∑ i ∈ range c.nf, ∑ e ∈ range c.d,
        Q i e * if (c.cell ci).ids.getD j 0 = i then (c.cell ci).faces[j].normal e else 0) =
      ∑ i ∈ range c.nf, ∑ e ∈ range c.d, Q i e * ∑ j : Fin (c.cell ci).faces.length,
        if (c.cell ci).ids.getD j 0 = i then (c.cell ci).faces[j].normal e else 0 := by
    intro ci
    rw [sum_comm]
    refine sum_congr rfl fun i _ => ?_
    rw [sum_comm]
    exact sum_congr rfl fun e _ => by rw [mul_sum]
  simp only [h2]
  rw [sum_comm]
  refine sum_eq_zero fun i hi => ?_
  rw [sum_comm]
  refine sum_eq_zero fun e he => ?_
  rw [← mul_sum]
  by_cases hb : bd i = true
  · simp [hQ, hb]
  · rw [hc i (mem_range.1 hi) (by simpa using hb) e (mem_range.1 he), mul_zero]

end Verif.Lemmas.Heat
