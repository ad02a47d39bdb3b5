import Verif.Spec.PolyFile
import Mathlib.Data.List.Basic
/-! Lemmas for C74. -/
namespace Verif.PolyFile
open Spec.PolyFile
variable {K : Type}

theorem get_int (p : Option Nat) (n : Nat) (ts : List (Tok K)) : get p (.int n :: ts) = .ok (n, ts) := rfl

theorem elems_ok (l : List Nat) (ts : List (Tok K)) : elems l.length (l.map .int ++ ts) = .ok (l, ts) := by
  induction l with
  | nil => rfl
  | cons i l ih => simp only [List.length_cons, List.map_cons, List.cons_append, elems, get_int, Outcome.bind_ok, ih]

theorem cellLine_ok (e : Entry) (ts : List (Tok K)) : cellLine (row e ++ ts) = .ok (e, ts) := by
  simp only [cellLine, row, List.cons_append, get_int, Outcome.bind_ok, elems_ok]

theorem block_cells (l : List Entry) (ts : List (Tok K)) :
    block cellLine l.length (l.flatMap row ++ ts) = .ok (l, ts) := by
  induction l with
  | nil => rfl
  | cons e l ih =>
    simp only [List.length_cons, List.flatMap_cons, List.append_assoc, block, cellLine_ok, Outcome.bind_ok, ih]

theorem block_groups (l : List (String × Entry)) (ts : List (Tok K)) :
    block grpLine l.length ((l.flatMap fun g => .word g.1 :: row g.2) ++ ts) = .ok (l.map Prod.snd, ts) := by
  induction l with
  | nil => rfl
  | cons e l ih =>
    simp only [List.length_cons, List.flatMap_cons, List.append_assoc, List.cons_append, block, grpLine, cellLine_ok,
      Outcome.bind_ok, ih, List.map_cons]

theorem nodes_ok (l : List (Nat × K × K × K)) (p : Option Nat) (ts : List (Tok K)) :
    nodes p l.length ((l.flatMap fun n => [Tok.int n.1, .coord n.2.1, .coord n.2.2.1, .coord n.2.2.2]) ++ ts) =
      .ok (l, ts) := by
  induction l generalizing p with
  | nil => rfl
  | cons e l ih =>
    simp only [List.length_cons, List.flatMap_cons, List.cons_append, List.nil_append, nodes, get_int, getCoord,
      Outcome.bind_ok, ih]

/-- Keyword of a section. -/
def kwOf : Sec K → String
  | .dim _ => "*Dimension"
  | .version _ => "*Version"
  | .nodes _ => "*Nodes"
  | .cells kw _ => kw
  | .groups kw _ => kw

theorem cellKw_ne {d : Nat} {kw : String} (h : kw ∈ cellKw d) :
    kw ≠ "*Dimension" ∧ kw ≠ "*Version" ∧ kw ≠ "*Nodes" := by
  have : ∀ k ∈ ["*Edges->Nodes", "*Faces->Nodes", "*Faces->Edges"] ++ ["*Volumes->Nodes", "*Volumes->Edges", "*Volumes->Faces"],
      k ≠ "*Dimension" ∧ k ≠ "*Version" ∧ k ≠ "*Nodes" := by decide
  apply this
  unfold cellKw at h
  split at h
  · exact h
  · simp only [List.append_nil] at h; exact List.mem_append_left _ h

theorem grpKw_ne {d : Nat} {kw : String} (h : kw ∈ grpKw d) :
    kw ≠ "*Dimension" ∧ kw ≠ "*Version" ∧ kw ≠ "*Nodes" ∧ kw ∉ cellKw d := by
  have : ∀ k ∈ ["*Nodes->Groups", "*Edges->Groups", "*Faces->Groups"] ++ ["*Volumes->Groups"],
      k ≠ "*Dimension" ∧ k ≠ "*Version" ∧ k ≠ "*Nodes" ∧
      k ∉ ["*Edges->Nodes", "*Faces->Nodes", "*Faces->Edges"] ++ ["*Volumes->Nodes", "*Volumes->Edges", "*Volumes->Faces"] := by
    decide
  have h' : kw ∈ ["*Nodes->Groups", "*Edges->Groups", "*Faces->Groups"] ++ ["*Volumes->Groups"] := by
    unfold grpKw at h
    split at h
    · exact h
    · simp only [List.append_nil] at h; exact List.mem_append_left _ h
  obtain ⟨h1, h2, h3, h4⟩ := this kw h'
  refine ⟨h1, h2, h3, fun hc => h4 ?_⟩
  unfold cellKw at hc
  split at hc
  · exact hc
  · simp only [List.append_nil] at hc; exact List.mem_append_left _ hc

/-- The counter used by a section is known. -/
def Cnt (d : Nat) (s : St K) : Sec K → Prop
  | .dim _ => s.dim = some d
  | .version _ => True
  | .nodes l => s.nb = some l.length
  | .cells _ l => s.nb = some l.length
  | .groups _ l => s.nb = some l.length

/-- One turn of the loop reads one section. -/
theorem step_ok (d : Nat) (s : St K) (x : Sec K) (hx : Valid d x) (ts : List (Tok K)) (hs : s.ts = write x ++ ts) :
    ∃ s', step d s = .ok (.inl s') ∧ s'.keyword = kwOf x ∧ s'.data = apply s.data x ∧ s'.ts = ts ∧
      Cnt d s' x := by
  cases x with
  | dim d' =>
    cases hx
    refine ⟨⟨"*Dimension", some d, s.nb, s.data, ts⟩, ?_, rfl, rfl, rfl, rfl⟩
    simp [step, hs, write, nextKeyword, num]
  | version v =>
    refine ⟨⟨"*Version", s.dim, s.nb, s.data, ts⟩, ?_, rfl, rfl, rfl, trivial⟩
    simp [step, hs, write, nextKeyword, num]
  | nodes l =>
    refine ⟨⟨"*Nodes", s.dim, some l.length, { s.data with vts := l }, ts⟩, ?_, rfl, rfl, rfl, rfl⟩
    simp only [step, hs, write, nextKeyword, List.cons_append, get_int, Outcome.bind_ok, nodes_ok]
    simp
  | cells kw l =>
    obtain ⟨h1, h2, h3⟩ := cellKw_ne hx
    refine ⟨⟨kw, s.dim, some l.length, { s.data with cells := upd s.data.cells kw l }, ts⟩, ?_, rfl, rfl, rfl, rfl⟩
    simp only [step, hs, write, nextKeyword, List.cons_append, if_neg h1, if_neg h2, if_neg h3,
      if_pos (show kw ∈ cellKw d from hx), get_int, Outcome.bind_ok, block_cells]
  | groups kw l =>
    obtain ⟨h1, h2, h3, h4⟩ := grpKw_ne hx
    refine ⟨⟨kw, s.dim, some l.length, { s.data with groups := upd s.data.groups kw (l.map Prod.snd) }, ts⟩, ?_, rfl, rfl, rfl, rfl⟩
    simp only [step, hs, write, nextKeyword, List.cons_append, if_neg h1, if_neg h2, if_neg h3, if_neg h4,
      if_pos (show kw ∈ grpKw d from hx), get_int, Outcome.bind_ok, block_groups]

/-- The reader after the sections of a file: at the end of the text, with the last keyword in hand. -/
structure After (d : Nat) (s : St K) (x : Sec K) : Prop where
  kw : s.keyword = kwOf x
  cnt : Cnt d s x

theorem loop_sections (d : Nat) (l : List (Sec K)) (hv : ∀ x ∈ l, Valid d x) (s : St K) (ts : List (Tok K))
    (hs : s.ts = l.flatMap write ++ ts) :
    ∃ s', (∀ fuel, loop d (l.length + fuel) s = loop d fuel s') ∧ s'.data = l.foldl apply s.data ∧ s'.ts = ts ∧
      (∀ x, l.getLast? = some x → After d s' x) ∧ (l = [] → s' = s) := by
  induction l generalizing s with
  | nil => exact ⟨s, fun fuel => by simp, rfl, by simpa using hs, by simp, fun _ => rfl⟩
  | cons x l ih =>
    obtain ⟨s1, h1, h2, h3, h4, h7⟩ := step_ok d s x (hv x List.mem_cons_self) (l.flatMap write ++ ts)
      (by rw [hs]; simp)
    obtain ⟨s', e1, e2, e3, e4, e5⟩ := ih (fun y hy => hv y (List.mem_cons_of_mem _ hy)) s1 h4
    refine ⟨s', ?_, ?_, e3, ?_, fun h => by simp at h⟩
    · intro fuel
      rw [List.length_cons, Nat.add_right_comm, loop, h1]
      exact e1 fuel
    · rw [e2, h3]; rfl
    · intro y hy
      cases l with
      | nil =>
        simp only [List.getLast?_singleton, Option.some.injEq] at hy
        subst hy
        rw [e5 rfl]
        exact ⟨h2, h7⟩
      | cons z l => exact e4 y (by simpa using hy)

/-- At the end of the text the reader cannot leave the loop. -/
theorem step_stuck (d : Nat) (s : St K) (x : Sec K) (hx : Valid d x) (h : After d s x) (hs : s.ts = []) :
    (Idle x → ∃ s', step d s = .ok (.inl s') ∧ After d s' x ∧ s'.ts = []) ∧
    (¬ Idle x → step d s = .ub "uninitialised") := by
  obtain ⟨hk, hc⟩ := h
  cases x with
  | dim d' =>
    have hc : s.dim = some d := hc
    refine ⟨fun _ => ⟨⟨"*Dimension", some d, s.nb, s.data, []⟩, ?_, ⟨rfl, rfl⟩, rfl⟩, fun h => absurd trivial h⟩
    simp [step, hs, hk, kwOf, nextKeyword, num, hc]
  | version v =>
    refine ⟨fun _ => ⟨⟨"*Version", s.dim, s.nb, s.data, []⟩, ?_, ⟨rfl, trivial⟩, rfl⟩, fun h => absurd trivial h⟩
    simp [step, hs, hk, kwOf, nextKeyword, num]
  | nodes l =>
    cases l with
    | nil =>
      have hc : s.nb = some 0 := hc
      refine ⟨fun _ => ⟨⟨"*Nodes", s.dim, some 0, { s.data with vts := [] }, []⟩, ?_, ⟨rfl, rfl⟩, rfl⟩, fun h => absurd rfl h⟩
      simp [step, hs, hk, kwOf, nextKeyword, get, num, hc, Outcome.bind, nodes]
    | cons e l =>
      have hc : s.nb = some (l.length + 1) := hc
      refine ⟨fun h => (List.cons_ne_nil _ _ h).elim, fun _ => ?_⟩
      simp [step, hs, hk, kwOf, nextKeyword, get, num, hc, Outcome.bind, nodes]
  | cells kw l =>
    obtain ⟨h1, h2, h3⟩ := cellKw_ne hx
    have hkw : kw ∈ cellKw d := hx
    cases l with
    | nil =>
      have hc : s.nb = some 0 := hc
      refine ⟨fun _ => ⟨⟨kw, s.dim, some 0, { s.data with cells := upd s.data.cells kw [] }, []⟩, ?_, ⟨rfl, rfl⟩, rfl⟩, fun h => absurd rfl h⟩
      simp [step, hs, hk, kwOf, nextKeyword, get, num, hc, Outcome.bind, block, cellLine, h1, h2, h3, hkw]
    | cons e l =>
      have hc : s.nb = some (l.length + 1) := hc
      refine ⟨fun h => (List.cons_ne_nil _ _ h).elim, fun _ => ?_⟩
      simp [step, hs, hk, kwOf, nextKeyword, get, num, hc, Outcome.bind, block, cellLine, h1, h2, h3, hkw]
  | groups kw l =>
    obtain ⟨h1, h2, h3, h4⟩ := grpKw_ne hx
    have hkw : kw ∈ grpKw d := hx
    cases l with
    | nil =>
      have hc : s.nb = some 0 := hc
      refine ⟨fun _ => ⟨⟨kw, s.dim, some 0, { s.data with groups := upd s.data.groups kw [] }, []⟩, ?_, ⟨rfl, rfl⟩, rfl⟩, fun h => absurd rfl h⟩
      simp [step, hs, hk, kwOf, nextKeyword, get, num, hc, Outcome.bind, block, grpLine, cellLine, h1, h2, h3, h4, hkw]
    | cons e l =>
      have hc : s.nb = some (l.length + 1) := hc
      refine ⟨fun h => (List.cons_ne_nil _ _ h).elim, fun _ => ?_⟩
      simp [step, hs, hk, kwOf, nextKeyword, get, num, hc, Outcome.bind, block, grpLine, cellLine, h1, h2, h3, h4, hkw]

theorem loop_idle (d : Nat) (x : Sec K) (hx : Valid d x) (hi : Idle x) (fuel : Nat) (s : St K) (h : After d s x)
    (hs : s.ts = []) : loop d fuel s = .ok none := by
  induction fuel generalizing s with
  | zero => rfl
  | succ fuel ih =>
    obtain ⟨s', e, h', hs'⟩ := (step_stuck d s x hx h hs).1 hi
    have : loop d (fuel + 1) s = loop d fuel s' := by rw [loop, e]; rfl
    rw [this]
    exact ih s' h' hs'

theorem loop_ub (d : Nat) (x : Sec K) (hx : Valid d x) (hi : ¬ Idle x) (fuel : Nat) (s : St K) (h : After d s x)
    (hs : s.ts = []) : loop d (fuel + 1) s = .ub "uninitialised" := by
  rw [loop, (step_stuck d s x hx h hs).2 hi]; rfl

/-- Once the loop has not returned within a number of turns, it had not returned within fewer. -/
theorem loop_mono (d : Nat) (k fuel : Nat) (s : St K) (h : loop d (fuel + k) s = .ok none) : loop d fuel s = .ok none := by
  induction fuel generalizing s with
  | zero => rfl
  | succ fuel ih =>
    rw [Nat.add_right_comm, loop] at h
    rw [loop]
    cases e : step d s with
    | ok r =>
      rw [e] at h
      cases r with
      | inl s' => exact ih s' h
      | inr x => simp [Outcome.bind] at h
    | throws w => rw [e] at h; simp [Outcome.bind] at h
    | ub w => rw [e] at h; simp [Outcome.bind] at h

end Verif.PolyFile
