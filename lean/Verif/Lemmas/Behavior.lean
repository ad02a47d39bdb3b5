import Verif.Spec.Behavior
/-! Lemmas on the stored state of the material laws. -/
noncomputable section
namespace Verif.Behavior
open Verif.Tensor Verif.TensorConv Verif.Mech Verif.Plastic Verif.Hyper Verif.LogStrain Verif.Spec

variable {Q σ E R S C X T : Type}

/-! ### One point -/

theorem pointRun_append (L : PointLaw σ E R S) (s : σ) (l l' : List (Option E)) :
    pointRun L s (l ++ l') = pointRun L (pointRun L s l) l' := by
  simp [pointRun, List.foldl_append]

theorem pointRun_none (L : PointLaw σ E R S) (s : σ) (l : List (Option E)) :
    pointRun L s (none :: l) = pointRun L (L.update s) l := rfl

theorem pointRun_some (L : PointLaw σ E R S) (s : σ) (e : E) (l : List (Option E)) :
    pointRun L s (some e :: l) = pointRun L (L.whole s e).2 l := rfl

/-- What is known of the actual state `a` and the direct state `b` between two updates. -/
def Matches (L : PointLaw σ E R S) (κ : σ → C) (a b : σ) (p : Option E) (f : Bool) : Prop :=
  κ a = κ b ∧ L.update b = b ∧ match p with
    | none => a = b
    | some e => f = true → ∃ a' r, κ a' = κ b ∧ (L.whole a' e).1 = .ok r ∧ a = (L.whole a' e).2

theorem run_matches (L : PointLaw σ E R S) (κ : σ → C) (h : Memoryless L κ) (l : List (Option E)) :
    ∀ (a b : σ) (p : Option E) (f : Bool), Matches L κ a b p f → (p = none → f = true) → CleanUpdates L f a l →
      κ (pointRun L a l) = κ (pointRun L b (directCalls (acceptedStrains p l))) ∧
      (l.getLast? = some none → pointRun L a l = pointRun L b (directCalls (acceptedStrains p l))) := by
  induction l with
  | nil => intro a b p f hm _ _; exact ⟨hm.1, by simp⟩
  | cons o l ih =>
    intro a b p f hm hf hc
    cases o with
    | none =>
      have hcl := hc.2
      have hft := hc.1
      have key : ∃ b', pointRun L b (directCalls p.toList) = b' ∧ L.update a = b' ∧ L.update b' = b' := by
        cases p with
        | none =>
          refine ⟨b, rfl, ?_, hm.2.1⟩
          rw [show a = b from hm.2.2]; exact hm.2.1
        | some e =>
          obtain ⟨a', r, hk, hr, ha⟩ := hm.2.2 hft
          refine ⟨L.update (L.whole b e).2, rfl, ?_, h.idem _⟩
          rw [ha, h.state a' b e r hk hr]
      obtain ⟨b', hb, ha, hu⟩ := key
      have hd : directCalls (acceptedStrains p (none :: l)) =
          directCalls p.toList ++ directCalls (acceptedStrains none l) := by
        simp [directCalls, acceptedStrains]
      rw [pointRun_none, hd, pointRun_append, hb, ha]
      rw [ha] at hcl
      have := ih b' b' none true ⟨rfl, hu, rfl⟩ (fun _ => rfl) hcl
      refine ⟨this.1, fun hl => ?_⟩
      cases l with
      | nil => rfl
      | cons o' l' => exact this.2 (by simpa using hl)
    | some e =>
      rw [pointRun_some]
      have hk : κ (L.whole a e).2 = κ b := (h.keeps a e).trans hm.1
      have := ih (L.whole a e).2 b (some e) _ ⟨hk, hm.2.1, ?_⟩ (by simp) hc
      · refine ⟨this.1, fun hl => ?_⟩
        cases l with
        | nil => simp at hl
        | cons o' l' => exact this.2 (by simpa using hl)
      · intro hf'
        cases hr : (L.whole a e).1 with
        | ok r => exact ⟨a, r, hm.1, hr, rfl⟩
        | throws m => rw [hr] at hf'; simp at hf'
        | ub w => rw [hr] at hf'; simp at hf'

/-! ### The store -/

theorem narrow_of_lt {n : Nat} (h : n < 2 ^ 31) : narrow n = n := by
  have e : n % 2 ^ 32 = n := Nat.mod_eq_of_lt (by omega)
  rw [narrow, e, if_pos h]

theorem get_modify {α : Type} (f : α → α) (l : List α) (i j : Nat) :
    (l.modify i f)[j]? = (l[j]?).map fun a => if i = j then f a else a := by
  rw [List.getElem?_modify]; by_cases h : i = j <;> simp [h]

/-- The state of a point of the store. -/
def stateAt (s : Store Q σ) (cell qp : Nat) : Option σ := (s[cell]?).bind fun c => (c[qp]?).map (·.2)

/-- The quadrature point of a point of the store. -/
def quadAt (s : Store Q σ) (cell qp : Nat) : Option Q := (s[cell]?).bind fun c => (c[qp]?).map (·.1)

theorem pointAt_eq (s : Store Q σ) {cell : Nat} (hc : cell < 2 ^ 31) (qp : Nat) :
    pointAt s cell qp = match s[cell]? with
      | some c => match c[qp]? with
        | some p => .ok p
        | none => .ub "m_list_qp[qp_id]"
      | none => .throws "vector::at" := by
  unfold pointAt cellAt
  rw [narrow_of_lt hc]
  cases s[cell]? <;> rfl

theorem wholeAt_state (L : PointLaw σ E R S) (s : Store Q σ) {cell : Nat} (hc : cell < 2 ^ 31) (qp : Nat) (e : E)
    (c q : Nat) :
    stateAt (wholeAt L s cell qp e).2 c q =
      (stateAt s c q).map fun x => if c = cell ∧ q = qp then (L.whole x e).2 else x := by
  have hpt := pointAt_eq s hc qp
  unfold wholeAt
  cases h1 : s[cell]? with
  | none =>
    rw [h1] at hpt
    rw [hpt]
    simp only [stateAt]
    by_cases e1 : c = cell
    · subst e1; simp [h1]
    · simp only [e1, false_and, if_false, Option.map_id']
  | some cl =>
    cases h2 : cl[qp]? with
    | none =>
      rw [h1] at hpt
      simp only [h2] at hpt
      rw [hpt]
      simp only [stateAt]
      by_cases e1 : c = cell
      · subst e1
        by_cases e2 : q = qp
        · subst e2; simp [h1, h2]
        · simp only [e2, and_false, if_false, Option.map_id']
      · simp only [e1, false_and, if_false, Option.map_id']
    | some p =>
      rw [h1] at hpt
      simp only [h2] at hpt
      rw [hpt]
      simp only [stateAt, narrow_of_lt hc, get_modify]
      by_cases e1 : cell = c
      · subst e1
        by_cases e2 : qp = q
        · subst e2; simp [h1, h2, get_modify]
        · simp only [h1, e2, Ne.symm e2, if_true, if_false, and_false, Option.map_some, Option.bind_some,
            get_modify, Option.map_id']
      · cases s[c]? <;> simp only [e1, Ne.symm e1, if_false, false_and, Option.map_id', Option.map_none,
          Option.map_some, Option.bind_none, Option.bind_some, id]

theorem wholeAt_quad (L : PointLaw σ E R S) (s : Store Q σ) (cell qp : Nat) (e : E) (c q : Nat) :
    quadAt (wholeAt L s cell qp e).2 c q = quadAt s c q := by
  unfold wholeAt
  cases pointAt s cell qp with
  | ok p =>
    simp only [quadAt, get_modify]
    cases s[c]? with
    | none => simp
    | some cl =>
      by_cases e1 : narrow cell = c
      · simp only [e1, if_true, Option.map_some, Option.bind_some, get_modify]
        by_cases e2 : qp = q
        · cases cl[q]? <;> simp [e2]
        · cases cl[q]? <;> simp [e2]
      · simp [e1]
  | throws m => rfl
  | ub w => rfl

theorem updateAll_state (L : PointLaw σ E R S) (s : Store Q σ) (c q : Nat) :
    stateAt (updateAll L s) c q = (stateAt s c q).map L.update := by
  simp only [stateAt, updateAll, List.getElem?_map]
  cases s[c]? with
  | none => rfl
  | some cl =>
    simp only [Option.map_some, Option.bind_some, List.getElem?_map]
    cases cl[q]? <;> rfl

theorem updateAll_quad (L : PointLaw σ E R S) (s : Store Q σ) (c q : Nat) :
    quadAt (updateAll L s) c q = quadAt s c q := by
  simp only [quadAt, updateAll, List.getElem?_map]
  cases s[c]? with
  | none => rfl
  | some cl =>
    simp only [Option.map_some, Option.bind_some, List.getElem?_map]
    cases cl[q]? <;> rfl

/-- The cells of the calls are in the range of an `int`. -/
def GoodCalls (l : List (Call E)) : Prop := ∀ c q e, Call.whole c q e ∈ l → c < 2 ^ 31

theorem exec_state (L : PointLaw σ E R S) (l : List (Call E)) (hl : GoodCalls l) (c q : Nat) :
    ∀ s : Store Q σ, stateAt (l.foldl (exec L) s) c q = (stateAt s c q).map fun x => pointRun L x (callsAt c q l) := by
  induction l with
  | nil => intro s; simp [callsAt, pointRun]
  | cons k l ih =>
    intro s
    have hl' : GoodCalls l := fun c q e h => hl c q e (by simp [h])
    rw [List.foldl_cons, ih hl']
    cases k with
    | whole c' q' e =>
      rw [exec, wholeAt_state L s (hl c' q' e (by simp))]
      cases stateAt s c q with
      | none => rfl
      | some x =>
        simp only [Option.map_some, callsAt]
        by_cases h : c' = c ∧ q' = q
        · have h' : c = c' ∧ q = q' := ⟨h.1.symm, h.2.symm⟩
          rw [if_pos h, if_pos h', pointRun_some]
        · have h' : ¬ (c = c' ∧ q = q') := fun g => h ⟨g.1.symm, g.2.symm⟩
          rw [if_neg h, if_neg h']
    | update =>
      rw [exec, updateAll_state]
      cases stateAt s c q with
      | none => rfl
      | some x => simp only [Option.map_some, callsAt, pointRun_none]

theorem exec_quad (L : PointLaw σ E R S) (l : List (Call E)) (c q : Nat) :
    ∀ s : Store Q σ, quadAt (l.foldl (exec L) s) c q = quadAt s c q := by
  induction l with
  | nil => intro s; rfl
  | cons k l ih =>
    intro s
    rw [List.foldl_cons, ih]
    cases k with
    | whole c' q' e => exact wholeAt_quad L s c' q' e c q
    | update => exact updateAll_quad L s c q

theorem build_state (L : PointLaw σ E R S) (rules : List (List Q)) (c q : Nat) :
    stateAt (build L rules) c q = ((rules[c]?).bind fun r => r[q]?).map fun _ => L.fresh := by
  simp only [stateAt, build, List.getElem?_map]
  cases rules[c]? with
  | none => rfl
  | some r =>
    simp only [Option.map_some, Option.bind_some, List.getElem?_map]
    cases r[q]? <;> rfl

theorem build_quad (L : PointLaw σ E R S) (rules : List (List Q)) (c q : Nat) :
    quadAt (build L rules) c q = (rules[c]?).bind fun r => r[q]? := by
  simp only [quadAt, build, List.getElem?_map]
  cases rules[c]? with
  | none => rfl
  | some r =>
    simp only [Option.map_some, Option.bind_some, List.getElem?_map]
    cases r[q]? <;> rfl

/-- The sizes of the cells never change. -/
theorem exec_lengths (L : PointLaw σ E R S) (s : Store Q σ) (k : Call E) :
    (exec L s k).map List.length = s.map List.length := by
  cases k with
  | whole c q e =>
    simp only [exec, wholeAt]
    cases pointAt s c q with
    | ok p =>
      apply List.ext_getElem?
      intro i
      simp only [List.getElem?_map, get_modify]
      cases s[i]? with
      | none => rfl
      | some cl => by_cases h : narrow c = i <;> simp [h]
    | throws m => rfl
    | ub w => rfl
  | update => simp [exec, updateAll, Function.comp_def]

theorem total_aux (l : List Nat) : ∀ n, n + l.sum < 2 ^ 31 →
    l.foldl (fun n c => (n + narrow c) % 2 ^ 64) n = n + l.sum := by
  induction l with
  | nil => intro n _; simp
  | cons a l ih =>
    intro n h
    rw [List.sum_cons] at h
    rw [List.foldl_cons, narrow_of_lt (by omega), Nat.mod_eq_of_lt (by omega), ih _ (by omega), List.sum_cons]
    omega

theorem totalQP_eq (s : Store Q σ) (h : (s.map List.length).sum < 2 ^ 31) : totalQP s = (s.map List.length).sum := by
  have := total_aux (s.map List.length) 0 (by omega)
  rw [List.foldl_map] at this
  rw [totalQP, this, narrow_of_lt (by omega)]
  omega

/-! ### The laws -/

theorem bonesLaw_memoryless (f : Mat ℝ 3 → Outcome R) (g : Mat ℝ 3 → Outcome (Mat ℝ 3)) :
    Memoryless (bonesLaw f g) Bones.prev where
  keeps := fun _ _ => rfl
  result := fun _ _ _ _ => rfl
  state := fun s s' e r h _ => by simp only [bonesLaw]; rw [h]
  idem := fun _ => rfl
  fresh := rfl

theorem henckyLaw2_memoryless (d : Data) : Memoryless (henckyLaw2 d) Bones.prev where
  keeps := fun _ _ => rfl
  result := fun _ _ _ _ => rfl
  state := fun s s' e r h _ => by simp only [henckyLaw2]; rw [h]
  idem := fun _ => rfl
  fresh := rfl

/-- The internal variables at the last accepted step. -/
def qpPrev (q : Qp) : Mat ℝ 3 × Mat ℝ 3 × ℝ := (q.estrainPrev, q.pstrainPrev, q.pPrev)

theorem plasticLaw_memoryless (d : Data) (o : Qp → E → Outcome (R × Qp)) (left : Qp → E → Qp)
    (ho : ∀ q q' e, qpPrev q = qpPrev q' → o q e = o q' e) (hk : ∀ q e r, o q e = .ok r → qpPrev r.2 = qpPrev q)
    (hl : ∀ q e, qpPrev (left q e) = qpPrev q) :
    Memoryless (plasticLaw (fun q e => keepState (o q e) (left q e)) d) qpPrev where
  keeps := fun q e => by
    simp only [plasticLaw]
    cases h : o q e with
    | ok r => exact hk q e r h
    | throws m => exact hl q e
    | ub w => exact hl q e
  result := fun q q' e h => by
    simp only [plasticLaw]
    rw [ho q q' e h]
    cases o q' e <;> rfl
  state := fun q q' e r h hr => by
    simp only [plasticLaw] at hr ⊢
    rw [ho q q' e h] at hr ⊢
    cases h' : o q' e with
    | ok r => rfl
    | throws m => rw [h'] at hr; cases hr
    | ub w => rw [h'] at hr; cases hr
  idem := fun _ => rfl
  fresh := rfl

theorem ite_ok {α : Type} {p : Prop} {_ : Decidable p} {m : String} {a r : α}
    (h : (if p then .throws m else .ok a : Outcome α) = .ok r) : a = r := by
  split at h
  · cases h
  · rwa [Outcome.ok.injEq] at h

theorem linHard3D_ok (plane : Bool) (d : Data) (q : Qp) (e : Mat ℝ 3 × Bool) (r : (Mat ℝ 3 × Tens ℝ 3) × Qp)
    (h : linHard3D plane q e.1 d e.2 = .ok r) :
    r.1.1 = elasticStress d r.2.estrainCurr ∧ qpPrev r.2 = qpPrev q := by
  simp only [linHard3D] at h
  split at h
  · cases h
  split at h
  · cases h
  have h' := ite_ok h
  rw [← h']
  refine ⟨rfl, ?_⟩
  dsimp only
  split <;> rfl

theorem linHardLaw_memoryless (plane : Bool) (d : Data) : Memoryless (linHardLaw plane d) qpPrev := by
  refine plasticLaw_memoryless d (fun q (e : Mat ℝ 3 × Bool) => linHard3D plane q e.1 d e.2)
    (fun q e => linHardLeft plane q e.1 d) ?_ ?_ ?_
  · rintro ⟨a, b, c, f, g, h, i⟩ ⟨a', b', c', f', g', h', i'⟩ e hq
    simp only [qpPrev, Prod.mk.injEq] at hq
    obtain ⟨rfl, rfl, rfl⟩ := hq
    rfl
  · exact fun q e r h => (linHard3D_ok plane d q e r h).2
  · intro q e
    simp only [linHardLeft]
    split
    · rfl
    · split <;> rfl

theorem vmisLaw_memoryless (plane : Bool) (d : Data) : Memoryless (vmisLaw plane d) qpPrev := by
  refine plasticLaw_memoryless d (fun q (e : Mat ℝ 3 × Bool) => vmis3D plane q e.1 d e.2)
    (fun q e => vmisLeft plane q e.1 d) ?_ ?_ ?_
  · rintro ⟨a, b, c, f, g, h, i⟩ ⟨a', b', c', f', g', h', i'⟩ e hq
    simp only [qpPrev, Prod.mk.injEq] at hq
    obtain ⟨rfl, rfl, rfl⟩ := hq
    rfl
  · intro q e r h
    simp only [vmis3D] at h
    split at h
    · split at h
      · cases h
      · simp only [Outcome.ok.injEq] at h
        rw [← h]; rfl
    · generalize hs : readSeg d.curve (findI0 d.curve q.pPrev) = o at h
      cases o with
      | throws m => cases h
      | ub w => cases h
      | ok s0 =>
        simp only [Outcome.bind_ok] at h
        split at h
        · cases h
        split at h
        · split at h
          · cases h
          · simp only [Outcome.ok.injEq] at h
            rw [← h]; rfl
        · generalize readSeg d.curve (findI1 d.curve d.mu q.pPrev _ _) = o at h
          cases o with
          | throws m => cases h
          | ub w => cases h
          | ok s1 =>
            simp only [Outcome.bind_ok] at h
            split at h
            · cases h
            · simp only [Outcome.ok.injEq] at h
              rw [← h]; rfl
  · intro q e
    simp only [vmisLeft]
    repeat' split
    all_goals rfl

theorem logLaw_memoryless (nm : Numerics) (L : PointLaw σ (Mat ℝ 3 × Bool) (Mat ℝ 3 × Tens ℝ 3) (Mat ℝ 3)) (κ : σ → C)
    (h : Memoryless L κ) : Memoryless (logLaw nm L) (fun s => κ s.1) where
  keeps := fun s e => by
    simp only [logLaw]
    split
    · rfl
    · exact h.keeps _ _
  result := fun s s' e hk => by
    simp only [logLaw]
    rw [show (fun E => (L.whole s.1 (E, e.2)).1) = fun E => (L.whole s'.1 (E, e.2)).1 from
      funext fun E => h.result _ _ _ hk]
  state := fun s s' e r hk hr => by
    simp only [logLaw, whole3D] at hr ⊢
    split at hr
    · cases hr
    · rename_i hJ
      rw [if_neg hJ, if_neg hJ]
      generalize elog (nm.solver (cauchyGreenRight e.1)).1 (nm.solver (cauchyGreenRight e.1)).2 = el at hr ⊢
      cases ho : (L.whole s.1 (el, e.2)).1 with
      | ok x =>
        rw [← h.result s.1 s'.1 _ hk, ho, h.state s.1 s'.1 _ x hk ho]
      | throws m => rw [ho] at hr; cases hr
      | ub w => rw [ho] at hr; cases hr
  idem := fun s => by simp only [logLaw, h.idem]
  fresh := by simp only [logLaw, h.fresh]

theorem planeLaw_memoryless (lift : Mat ℝ 2 → Mat ℝ 3)
    (L : PointLaw σ (Mat ℝ 3 × Bool) (Mat ℝ 3 × Tens ℝ 3) (Mat ℝ 3)) (κ : σ → C) (h : Memoryless L κ) :
    Memoryless (planeLaw lift L) κ where
  keeps := fun s e => h.keeps s _
  result := fun s s' e hk => by simp only [planeLaw]; rw [h.result s s' _ hk]
  state := fun s s' e r hk hr => by
    simp only [planeLaw] at hr ⊢
    cases ho : (L.whole s (lift e.1, e.2)).1 with
    | ok x => exact h.state s s' _ x hk ho
    | throws m => rw [ho] at hr; cases hr
    | ub w => rw [ho] at hr; cases hr
  idem := h.idem
  fresh := h.fresh

/-- What each law remembers of the accepted steps. -/
def Committed : LawId → Type
  | .elastic | .hencky | .neo | .cav | .logElastic => Mat ℝ 3
  | .linHard | .vmis | .logLinHard | .logVmis => Mat ℝ 3 × Mat ℝ 3 × ℝ

/-- The internal variables at the last accepted step. -/
def committed : (i : LawId) → St i → Committed i
  | .elastic => Bones.prev
  | .hencky => Bones.prev
  | .neo => Bones.prev
  | .cav => Bones.prev
  | .linHard => qpPrev
  | .vmis => qpPrev
  | .logElastic => fun s => Bones.prev s.1
  | .logLinHard => fun s => qpPrev s.1
  | .logVmis => fun s => qpPrev s.1

theorem elasticLaw_memoryless (d : Data) : Memoryless (elasticLaw d) Bones.prev := bonesLaw_memoryless _ _

theorem henckyLaw3_memoryless (d : Data) : Memoryless (henckyLaw3 d) Bones.prev := bonesLaw_memoryless _ _

theorem neoLaw_memoryless (d : Data) : Memoryless (neoLaw d) Bones.prev := bonesLaw_memoryless _ _

theorem cavLaw_memoryless (d : Data) : Memoryless (cavLaw d) Bones.prev := bonesLaw_memoryless _ _

theorem law3_memoryless (nm : Numerics) (d : Data) (i : LawId) : Memoryless (law3 nm d i) (committed i) := by
  cases i
  · exact elasticLaw_memoryless d
  · exact linHardLaw_memoryless false d
  · exact vmisLaw_memoryless false d
  · exact henckyLaw3_memoryless d
  · exact neoLaw_memoryless d
  · exact cavLaw_memoryless d
  · exact logLaw_memoryless nm _ _ (elasticLaw_memoryless d)
  · exact logLaw_memoryless nm _ _ (linHardLaw_memoryless false d)
  · exact logLaw_memoryless nm _ _ (vmisLaw_memoryless false d)

theorem law2_memoryless (nm : Numerics) (d : Data) (i : LawId) : Memoryless (law2 nm d i) (committed i) := by
  cases i
  · exact planeLaw_memoryless _ _ _ (elasticLaw_memoryless d)
  · exact planeLaw_memoryless _ _ _ (linHardLaw_memoryless true d)
  · exact planeLaw_memoryless _ _ _ (vmisLaw_memoryless true d)
  · exact henckyLaw2_memoryless d
  · exact planeLaw_memoryless _ _ _ (neoLaw_memoryless d)
  · exact planeLaw_memoryless _ _ _ (cavLaw_memoryless d)
  · exact planeLaw_memoryless _ _ _ (logLaw_memoryless nm _ _ (elasticLaw_memoryless d))
  · exact planeLaw_memoryless _ _ _ (logLaw_memoryless nm _ _ (linHardLaw_memoryless true d))
  · exact planeLaw_memoryless _ _ _ (logLaw_memoryless nm _ _ (vmisLaw_memoryless true d))

/-! ### Reading the stress back -/

theorem bonesLaw_readback {A : Type} (f : Mat ℝ 3 → Outcome (Mat ℝ 3 × A)) (g : Mat ℝ 3 → Outcome (Mat ℝ 3))
    (h : ∀ e r, f e = .ok r → g e = .ok r.1) : Readback (bonesLaw f g) id where
  read := fun _ e r hr => ⟨r.1, h e.1 r hr, rfl⟩
  update := fun _ => rfl

theorem bind_fst {α β : Type} (a : Outcome α) (b : Outcome β) (r : α × β)
    (h : (a.bind fun P => b.bind fun A => .ok (P, A)) = .ok r) : a = .ok r.1 := by
  cases a with
  | throws m => cases h
  | ub w => cases h
  | ok P =>
    rw [Outcome.bind_ok] at h
    cases b with
    | throws m => cases h
    | ub w => cases h
    | ok A =>
      simp only [Outcome.bind_ok, Outcome.ok.injEq] at h
      rw [← h]

theorem plasticLaw_readback {A : Type} (d : Data) (o : Qp → E → Outcome ((Mat ℝ 3 × A) × Qp)) (left : Qp → E → Qp)
    (h : ∀ q e r, o q e = .ok r → r.1.1 = elasticStress d r.2.estrainCurr) :
    Readback (plasticLaw (fun q e => keepState (o q e) (left q e)) d) id where
  read := fun q e r hr => by
    simp only [plasticLaw] at hr ⊢
    cases ho : o q e with
    | ok x =>
      rw [ho] at hr
      simp only [keepState, Outcome.ok.injEq] at hr
      exact ⟨_, rfl, by rw [← hr]; exact (h q e x ho).symm⟩
    | throws m => rw [ho] at hr; cases hr
    | ub w => rw [ho] at hr; cases hr
  update := fun _ => rfl

theorem linHardLaw_readback (plane : Bool) (d : Data) : Readback (linHardLaw plane d) id := by
  refine plasticLaw_readback d (fun q (e : Mat ℝ 3 × Bool) => linHard3D plane q e.1 d e.2) _ ?_
  exact fun q e r h => (linHard3D_ok plane d q e r h).1

theorem vmisLaw_readback (plane : Bool) (d : Data) : Readback (vmisLaw plane d) id := by
  refine plasticLaw_readback d (fun q (e : Mat ℝ 3 × Bool) => vmis3D plane q e.1 d e.2) _ ?_
  intro q e r h
  simp only [vmis3D] at h
  split at h
  · split at h
    · cases h
    · simp only [Outcome.ok.injEq] at h
      rw [← h]
  · generalize hs : readSeg d.curve (findI0 d.curve q.pPrev) = o at h
    cases o with
    | throws m => cases h
    | ub w => cases h
    | ok s0 =>
      simp only [Outcome.bind_ok] at h
      split at h
      · cases h
      split at h
      · split at h
        · cases h
        · simp only [Outcome.ok.injEq] at h
          rw [← h]
      · generalize readSeg d.curve (findI1 d.curve d.mu q.pPrev _ _) = o at h
        cases o with
        | throws m => cases h
        | ub w => cases h
        | ok s1 =>
          simp only [Outcome.bind_ok] at h
          split at h
          · cases h
          · simp only [Outcome.ok.injEq] at h
            rw [← h]

theorem logLaw_readback (nm : Numerics) (L : PointLaw σ (Mat ℝ 3 × Bool) (Mat ℝ 3 × Tens ℝ 3) (Mat ℝ 3))
    (h : Readback L id) : Readback (logLaw nm L) id where
  read := fun s e r hr => by
    simp only [logLaw, whole3D] at hr ⊢
    split at hr
    · cases hr
    · rename_i hJ
      rw [if_neg hJ]
      dsimp only
      generalize elog (nm.solver (cauchyGreenRight e.1)).1 (nm.solver (cauchyGreenRight e.1)).2 = el at hr ⊢
      cases ho : (L.whole s.1 (el, e.2)).1 with
      | throws m => rw [ho] at hr; cases hr
      | ub w => rw [ho] at hr; cases hr
      | ok x =>
        obtain ⟨v, hv, hx⟩ := h.read _ _ _ ho
        rw [hv]
        refine ⟨_, rfl, ?_⟩
        rw [ho, Outcome.bind_ok] at hr
        rw [show v = x.1 from hx]
        split at hr
        · simp only [Outcome.ok.injEq] at hr
          rw [← hr]; rfl
        · simp only [Outcome.ok.injEq] at hr
          rw [← hr]; rfl
  update := fun s => by simp only [logLaw, h.update]

theorem planeLaw_readback (lift : Mat ℝ 2 → Mat ℝ 3)
    (L : PointLaw σ (Mat ℝ 3 × Bool) (Mat ℝ 3 × Tens ℝ 3) (Mat ℝ 3)) (h : Readback L id) :
    Readback (planeLaw lift L) matrix2 where
  read := fun s e r hr => by
    simp only [planeLaw] at hr ⊢
    cases ho : (L.whole s (lift e.1, e.2)).1 with
    | throws m => rw [ho] at hr; cases hr
    | ub w => rw [ho] at hr; cases hr
    | ok x =>
      obtain ⟨v, hv, hx⟩ := h.read _ _ _ ho
      refine ⟨v, hv, ?_⟩
      rw [ho] at hr
      simp only [Outcome.bind_ok, Outcome.ok.injEq] at hr
      rw [← hr, ← hx]; rfl
  update := h.update

theorem elasticLaw_readback (d : Data) : Readback (elasticLaw d) id :=
  bonesLaw_readback _ _ fun e r h => by simp only [Outcome.ok.injEq] at h; rw [← h]

theorem henckyLaw3_readback (d : Data) : Readback (henckyLaw3 d) id :=
  bonesLaw_readback _ _ fun e r h => by simp only [Outcome.ok.injEq] at h; rw [← h]; rfl

theorem neoLaw_readback (d : Data) : Readback (neoLaw d) id := bonesLaw_readback _ _ fun _ _ h => bind_fst _ _ _ h

theorem cavLaw_readback (d : Data) : Readback (cavLaw d) id := bonesLaw_readback _ _ fun _ _ h => bind_fst _ _ _ h

theorem law3_readback (nm : Numerics) (d : Data) (i : LawId) : Readback (law3 nm d i) id := by
  cases i
  · exact elasticLaw_readback d
  · exact linHardLaw_readback false d
  · exact vmisLaw_readback false d
  · exact henckyLaw3_readback d
  · exact neoLaw_readback d
  · exact cavLaw_readback d
  · exact logLaw_readback nm _ (elasticLaw_readback d)
  · exact logLaw_readback nm _ (linHardLaw_readback false d)
  · exact logLaw_readback nm _ (vmisLaw_readback false d)

theorem law2_readback (nm : Numerics) (d : Data) (i : LawId) (hi : i ≠ .hencky) : Readback (law2 nm d i) matrix2 := by
  cases i
  · exact planeLaw_readback _ _ (elasticLaw_readback d)
  · exact planeLaw_readback _ _ (linHardLaw_readback true d)
  · exact planeLaw_readback _ _ (vmisLaw_readback true d)
  · exact absurd rfl hi
  · exact planeLaw_readback _ _ (neoLaw_readback d)
  · exact planeLaw_readback _ _ (cavLaw_readback d)
  · exact planeLaw_readback _ _ (logLaw_readback nm _ (elasticLaw_readback d))
  · exact planeLaw_readback _ _ (logLaw_readback nm _ (linHardLaw_readback true d))
  · exact planeLaw_readback _ _ (logLaw_readback nm _ (vmisLaw_readback true d))

/-! ### The Newton loop -/

/-- Two collections of states agree on what was accepted. -/
def Agree (κ : σ → C) (s s' : List (List σ)) : Prop := s.map (·.map κ) = s'.map (·.map κ)

theorem evalCell_agree (L : PointLaw σ E R S) (κ : σ → C) (h : Memoryless L κ) (s : List σ) :
    ∀ (s' : List σ) (e : Nat → E), s.map κ = s'.map κ →
      (evalCell L s e).1 = (evalCell L s' e).1 ∧ (evalCell L s e).2.map κ = s.map κ ∧
      ∀ r, (evalCell L s e).1 = .ok r → (evalCell L s e).2 = (evalCell L s' e).2 := by
  induction s with
  | nil =>
    intro s' e hk
    cases s' with
    | nil => exact ⟨rfl, rfl, fun _ _ => rfl⟩
    | cons a l => simp at hk
  | cons a l ih =>
    intro s' e hk
    cases s' with
    | nil => simp at hk
    | cons a' l' =>
      simp only [List.map_cons, List.cons.injEq] at hk
      have hr := h.result a a' (e 0) hk.1
      obtain ⟨i1, i2, i3⟩ := ih l' (fun q => e (q + 1)) hk.2
      simp only [evalCell]
      rw [← hr]
      cases ho : (L.whole a (e 0)).1 with
      | ok x =>
        refine ⟨by rw [i1], by simp [i2, h.keeps], fun r hr' => ?_⟩
        dsimp only at hr' ⊢
        rw [h.state a a' (e 0) x hk.1 ho]
        cases hx : (evalCell L l fun q => e (q + 1)).1 with
        | ok xs => rw [i3 xs hx]
        | throws m => rw [hx] at hr'; cases hr'
        | ub w => rw [hx] at hr'; cases hr'
      | throws m => exact ⟨rfl, by simp [h.keeps], fun r hr' => by cases hr'⟩
      | ub w => exact ⟨rfl, by simp [h.keeps], fun r hr' => by cases hr'⟩

theorem evalCells_agree (L : PointLaw σ E R S) (κ : σ → C) (h : Memoryless L κ) (s : List (List σ)) :
    ∀ (s' : List (List σ)) (e : Nat → Nat → E), Agree κ s s' →
      (evalCells L s e).1 = (evalCells L s' e).1 ∧ Agree κ (evalCells L s e).2 s ∧
      ∀ r, (evalCells L s e).1 = .ok r → (evalCells L s e).2 = (evalCells L s' e).2 := by
  induction s with
  | nil =>
    intro s' e hk
    cases s' with
    | nil => exact ⟨rfl, rfl, fun _ _ => rfl⟩
    | cons a l => simp [Agree] at hk
  | cons a l ih =>
    intro s' e hk
    cases s' with
    | nil => simp [Agree] at hk
    | cons a' l' =>
      simp only [Agree, List.map_cons, List.cons.injEq] at hk
      obtain ⟨c1, c2, c3⟩ := evalCell_agree L κ h a a' (e 0) hk.1
      obtain ⟨i1, i2, i3⟩ := ih l' (fun q => e (q + 1)) hk.2
      simp only [Agree] at i2
      simp only [evalCells, Agree]
      rw [← c1]
      cases ho : (evalCell L a (e 0)).1 with
      | ok x =>
        refine ⟨by rw [i1], by simp [i2, c2], fun r hr' => ?_⟩
        dsimp only at hr' ⊢
        rw [c3 x ho]
        cases hx : (evalCells L l fun q => e (q + 1)).1 with
        | ok xs => rw [i3 xs hx]
        | throws m => rw [hx] at hr'; cases hr'
        | ub w => rw [hx] at hr'; cases hr'
      | throws m => exact ⟨rfl, by simp [c2], fun r hr' => by cases hr'⟩
      | ub w => exact ⟨rfl, by simp [c2], fun r hr' => by cases hr'⟩

/-- Two outcomes of the solver that differ at most in the current, not accepted values. -/
def SameOutcome (κ : σ → C) (o o' : Outcome (Bool × X × List (List σ))) : Prop :=
  match o, o' with
  | .ok r, .ok r' => r.1 = r'.1 ∧ r.2.1 = r'.2.1 ∧ Agree κ r.2.2 r'.2.2 ∧ (r.1 = true → r.2.2 = r'.2.2)
  | .throws m, .throws m' => m = m'
  | .ub w, .ub w' => w = w'
  | _, _ => False

theorem newtonLoop_agree (L : PointLaw σ E R S) (κ : σ → C) (h : Memoryless L κ) (P : Problem X T E R) (t : T) (x0 : X)
    (n : Nat) : ∀ (iter : Nat) (x : X) (s s' : List (List σ)), Agree κ s s' →
      SameOutcome κ (newtonLoop L P t x0 iter n x s) (newtonLoop L P t x0 iter n x s') := by
  induction n with
  | zero => intro iter x s s' hk; exact ⟨rfl, rfl, hk, by simp⟩
  | succ n ih =>
    intro iter x s s' hk
    obtain ⟨h1, h2, h3⟩ := evalCells_agree L κ h s s' (P.strain x) hk
    obtain ⟨_, h2', _⟩ := evalCells_agree L κ h s' s (P.strain x) hk.symm
    have hA : Agree κ (evalCells L s (P.strain x)).2 (evalCells L s' (P.strain x)).2 :=
      Eq.trans h2 (Eq.trans hk (Eq.symm h2'))
    simp only [newtonLoop]
    rw [← h1]
    cases ho : (evalCells L s (P.strain x)).1 with
    | throws m => exact ⟨rfl, rfl, hA, by simp⟩
    | ub w => exact rfl
    | ok rs =>
      dsimp only
      have heq := h3 rs ho
      cases P.converged t iter x rs with
      | throws m => exact ⟨rfl, rfl, hA, by simp⟩
      | ub w => exact rfl
      | ok b =>
        cases b with
        | true => exact ⟨rfl, rfl, hA, fun _ => heq⟩
        | false => exact ih _ _ _ _ hA

theorem newtonLoop_keeps (L : PointLaw σ E R S) (κ : σ → C) (h : Memoryless L κ) (P : Problem X T E R) (t : T) (x0 : X)
    (n : Nat) : ∀ (iter : Nat) (x : X) (s : List (List σ)) (r : Bool × X × List (List σ)),
      newtonLoop L P t x0 iter n x s = .ok r → Agree κ r.2.2 s ∧ (r.1 = false → r.2.1 = x0) := by
  induction n with
  | zero =>
    intro iter x s r hr
    simp only [newtonLoop, Outcome.ok.injEq] at hr
    rw [← hr]; exact ⟨rfl, fun _ => rfl⟩
  | succ n ih =>
    intro iter x s r hr
    obtain ⟨_, h2, _⟩ := evalCells_agree L κ h s s (P.strain x) rfl
    simp only [newtonLoop] at hr
    cases ho : (evalCells L s (P.strain x)).1 with
    | throws m =>
      rw [ho] at hr; simp only [Outcome.ok.injEq] at hr; rw [← hr]; exact ⟨h2, fun _ => rfl⟩
    | ub w => rw [ho] at hr; cases hr
    | ok rs =>
      rw [ho] at hr
      dsimp only at hr
      cases hc : P.converged t iter x rs with
      | throws m => rw [hc] at hr; simp only [Outcome.ok.injEq] at hr; rw [← hr]; exact ⟨h2, fun _ => rfl⟩
      | ub w => rw [hc] at hr; cases hr
      | ok b =>
        rw [hc] at hr
        cases b with
        | true => simp only [Outcome.ok.injEq] at hr; rw [← hr]; exact ⟨h2, by simp⟩
        | false =>
          obtain ⟨i1, i2⟩ := ih _ _ _ _ hr
          exact ⟨Eq.trans i1 h2, i2⟩

theorem newtonLoop_converged (L : PointLaw σ E R S) (P : Problem X T E R) (t : T) (x0 : X)
    (n : Nat) : ∀ (iter : Nat) (x : X) (s : List (List σ)) (r : Bool × X × List (List σ)),
      newtonLoop L P t x0 iter n x s = .ok r → r.1 = true →
        ∃ s0 rs k, evalCells L s0 (P.strain r.2.1) = (.ok rs, r.2.2) ∧ P.converged t k r.2.1 rs = .ok true := by
  induction n with
  | zero =>
    intro iter x s r hr ht
    simp only [newtonLoop, Outcome.ok.injEq] at hr
    rw [← hr] at ht; simp at ht
  | succ n ih =>
    intro iter x s r hr ht
    simp only [newtonLoop] at hr
    cases ho : (evalCells L s (P.strain x)).1 with
    | throws m => rw [ho] at hr; simp only [Outcome.ok.injEq] at hr; rw [← hr] at ht; simp at ht
    | ub w => rw [ho] at hr; cases hr
    | ok rs =>
      rw [ho] at hr
      dsimp only at hr
      cases hc : P.converged t iter x rs with
      | throws m => rw [hc] at hr; simp only [Outcome.ok.injEq] at hr; rw [← hr] at ht; simp at ht
      | ub w => rw [hc] at hr; cases hr
      | ok b =>
        rw [hc] at hr
        cases b with
        | true =>
          simp only [Outcome.ok.injEq] at hr
          rw [← hr]
          exact ⟨s, rs, iter, Prod.ext ho rfl, hc⟩
        | false => exact ih _ _ _ _ hr ht

/-- Two outcomes of the time loop that differ at most in the current, not accepted values. -/
def SameRun (κ : σ → C) (o o' : Outcome (Option (Bool × X × List (List σ)))) : Prop :=
  match o, o' with
  | .ok (some r), .ok (some r') => r.1 = r'.1 ∧ r.2.1 = r'.2.1 ∧ Agree κ r.2.2 r'.2.2
  | .ok none, .ok none => True
  | .throws m, .throws m' => m = m'
  | .ub w, .ub w' => w = w'
  | _, _ => False

theorem SameRun.refl (κ : σ → C) (o : Outcome (Option (Bool × X × List (List σ)))) : SameRun κ o o := by
  cases o with
  | ok r => cases r with
    | none => trivial
    | some r => exact ⟨rfl, rfl, rfl⟩
  | throws m => exact rfl
  | ub w => exact rfl

theorem timeLoop_agree (L : PointLaw σ E R S) (κ : σ → C) (h : Memoryless L κ) (P : Problem X T E R) (iterMax sub : Nat)
    (split : T → T × T) (fuel : Nat) : ∀ (b : Bool) (ts : List (T × Nat)) (x : X) (s s' : List (List σ)), Agree κ s s' →
      SameRun κ (timeLoop L P iterMax sub split fuel b ts x s) (timeLoop L P iterMax sub split fuel b ts x s') := by
  induction fuel with
  | zero =>
    intro b ts x s s' hk
    cases ts with
    | nil => exact ⟨rfl, rfl, hk⟩
    | cons t l => trivial
  | succ fuel ih =>
    intro b ts x s s' hk
    cases ts with
    | nil => exact ⟨rfl, rfl, hk⟩
    | cons t l =>
      obtain ⟨t, lev⟩ := t
      have hn := newtonLoop_agree L κ h P t x iterMax 0 x s s' hk
      simp only [timeLoop, newtonStep]
      cases h1 : newtonLoop L P t x 0 iterMax x s with
      | throws m =>
        cases h2 : newtonLoop L P t x 0 iterMax x s' <;> rw [h1, h2] at hn <;>
          first | exact hn | exact absurd hn (by simp [SameOutcome])
      | ub w =>
        cases h2 : newtonLoop L P t x 0 iterMax x s' <;> rw [h1, h2] at hn <;>
          first | exact hn | exact absurd hn (by simp [SameOutcome])
      | ok r =>
        cases h2 : newtonLoop L P t x 0 iterMax x s' with
        | throws m => rw [h1, h2] at hn; exact absurd hn (by simp [SameOutcome])
        | ub w => rw [h1, h2] at hn; exact absurd hn (by simp [SameOutcome])
        | ok r' =>
          rw [h1, h2] at hn
          obtain ⟨n1, n2, n3, n4⟩ := hn
          obtain ⟨c, y, z⟩ := r
          obtain ⟨c', y', z'⟩ := r'
          simp only at n1 n2 n3 n4
          subst n1 n2
          simp only [Outcome.bind_ok]
          cases c with
          | true =>
            rw [if_pos rfl, if_pos rfl, n4 rfl]
            exact SameRun.refl κ _
          | false =>
            simp only [Bool.false_eq_true, if_false]
            by_cases hl : lev + 1 > sub
            · rw [if_pos hl, if_pos hl]; exact ⟨rfl, rfl, n3⟩
            · rw [if_neg hl, if_neg hl]; exact ih _ _ _ _ _ n3

theorem timeLoop_success (L : PointLaw σ E R S) (P : Problem X T E R) (iterMax sub : Nat)
    (split : T → T × T) (fuel : Nat) : ∀ (b : Bool) (ts : List (T × Nat)) (x : X) (s : List (List σ))
      (r : Bool × X × List (List σ)), timeLoop L P iterMax sub split fuel b ts x s = .ok (some r) → r.1 = true →
      (b = true ∧ ts = [] ∧ r.2.1 = x ∧ r.2.2 = s) ∨
      ∃ s0 s1 rs t k, evalCells L s0 (P.strain r.2.1) = (.ok rs, s1) ∧ P.converged t k r.2.1 rs = .ok true ∧
        r.2.2 = s1.map fun c => c.map L.update := by
  induction fuel with
  | zero =>
    intro b ts x s r hr ht
    cases ts with
    | nil =>
      simp only [timeLoop, Outcome.ok.injEq, Option.some.injEq] at hr
      rw [← hr] at ht ⊢
      exact .inl ⟨ht, rfl, rfl, rfl⟩
    | cons t l => simp [timeLoop] at hr
  | succ fuel ih =>
    intro b ts x s r hr ht
    cases ts with
    | nil =>
      simp only [timeLoop, Outcome.ok.injEq, Option.some.injEq] at hr
      rw [← hr] at ht ⊢
      exact .inl ⟨ht, rfl, rfl, rfl⟩
    | cons t l =>
      obtain ⟨t, lev⟩ := t
      simp only [timeLoop, newtonStep] at hr
      cases h1 : newtonLoop L P t x 0 iterMax x s with
      | throws m => rw [h1] at hr; cases hr
      | ub w => rw [h1] at hr; cases hr
      | ok q =>
        rw [h1, Outcome.bind_ok] at hr
        right
        cases hq : q.1 with
        | true =>
          rw [hq, if_pos rfl] at hr
          rcases ih _ _ _ _ _ hr ht with ⟨_, _, h3, h4⟩ | h
          · obtain ⟨s0, rs, k, e1, e2⟩ := newtonLoop_converged L P t x iterMax 0 x s q h1 hq
            rw [h3, h4]
            exact ⟨s0, q.2.2, rs, t, k, e1, e2, rfl⟩
          · exact h
        | false =>
          simp only [hq, Bool.false_eq_true, if_false] at hr
          by_cases hl : lev + 1 > sub
          · rw [if_pos hl] at hr
            simp only [Outcome.ok.injEq, Option.some.injEq] at hr
            rw [← hr] at ht; simp at ht
          · rw [if_neg hl] at hr
            rcases ih _ _ _ _ _ hr ht with ⟨h2, _⟩ | h
            · simp at h2
            · exact h

theorem evalCell_get (L : PointLaw σ E R S) (s : List σ) : ∀ (e : Nat → E) (rs : List R) (s1 : List σ),
    evalCell L s e = (.ok rs, s1) → ∀ q p, s1[q]? = some p →
      ∃ a r, rs[q]? = some r ∧ L.whole a (e q) = (.ok r, p) := by
  induction s with
  | nil =>
    intro e rs s1 h q p hp
    simp only [evalCell, Prod.mk.injEq] at h
    rw [← h.2] at hp; simp at hp
  | cons a l ih =>
    intro e rs s1 h q p hp
    simp only [evalCell] at h
    cases ho : (L.whole a (e 0)).1 with
    | throws m => rw [ho] at h; simp at h
    | ub w => rw [ho] at h; simp at h
    | ok x =>
      rw [ho] at h
      simp only [Prod.mk.injEq] at h
      cases hx : (evalCell L l fun q => e (q + 1)).1 with
      | throws m => rw [hx] at h; cases h.1
      | ub w => rw [hx] at h; cases h.1
      | ok xs =>
        rw [hx] at h
        simp only [Outcome.bind_ok, Outcome.ok.injEq] at h
        rw [← h.2] at hp
        rw [← h.1]
        cases q with
        | zero =>
          simp only [List.getElem?_cons_zero, Option.some.injEq] at hp
          exact ⟨a, x, rfl, Prod.ext ho hp⟩
        | succ q =>
          simp only [List.getElem?_cons_succ] at hp ⊢
          exact ih _ xs _ (Prod.ext hx rfl) q p hp

theorem evalCells_get (L : PointLaw σ E R S) (s : List (List σ)) : ∀ (e : Nat → Nat → E) (rs : List (List R))
    (s1 : List (List σ)), evalCells L s e = (.ok rs, s1) → ∀ c q cl p, s1[c]? = some cl → cl[q]? = some p →
      ∃ a r, L.whole a (e c q) = (.ok r, p) ∧ ((rs[c]?).bind fun l => l[q]?) = some r := by
  induction s with
  | nil =>
    intro e rs s1 h c q cl p hc _
    simp only [evalCells, Prod.mk.injEq] at h
    rw [← h.2] at hc; simp at hc
  | cons a l ih =>
    intro e rs s1 h c q cl p hc hp
    simp only [evalCells] at h
    cases ho : (evalCell L a (e 0)).1 with
    | throws m => rw [ho] at h; simp at h
    | ub w => rw [ho] at h; simp at h
    | ok x =>
      rw [ho] at h
      simp only [Prod.mk.injEq] at h
      cases hx : (evalCells L l fun q => e (q + 1)).1 with
      | throws m => rw [hx] at h; cases h.1
      | ub w => rw [hx] at h; cases h.1
      | ok xs =>
        rw [hx] at h
        simp only [Outcome.bind_ok, Outcome.ok.injEq] at h
        rw [← h.2] at hc
        rw [← h.1]
        cases c with
        | zero =>
          simp only [List.getElem?_cons_zero, Option.some.injEq] at hc
          obtain ⟨b, r, h1, h2⟩ := evalCell_get L a (e 0) x _ (Prod.ext ho hc) q p hp
          exact ⟨b, r, h2, h1⟩
        | succ c =>
          simp only [List.getElem?_cons_succ] at hc ⊢
          exact ih _ xs _ (Prod.ext hx rfl) c q cl p hc hp

/-! ### The witness of C134 -/

/-- The strain of the witness. -/
def wStrain : Mat ℝ 2 := fun i j => if i = 0 ∧ j = 0 then 1 else 0

theorem wStrain_norm2 : Mech.norm (deviator (matrix2 (matrix3D wStrain))) = Real.sqrt (1 / 2) := by
  unfold Mech.norm
  congr 1
  simp [sqNorm, Tensor.inner, deviator, trace, matrix2, matrix3D, wStrain, idm, Fin.sum_univ_succ]
  norm_num

theorem wStrain_norm3 : Mech.norm (deviator (matrix3D wStrain)) = Real.sqrt (2 / 3) := by
  unfold Mech.norm
  congr 1
  simp [sqNorm, Tensor.inner, deviator, trace, matrix3D, wStrain, idm, Fin.sum_univ_succ]
  norm_num

theorem det_zero3 : det (0 : Mat ℝ 3) ≤ 0 := by
  simp [det, Matrix.det_fin_three]

end Verif.Behavior
