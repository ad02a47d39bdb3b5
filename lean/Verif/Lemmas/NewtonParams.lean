import Verif.Spec.NewtonParams
import Mathlib.Algebra.Field.Rat
/-!
Lemmas on reading parameter files.
-/
namespace Verif.Lemmas.NewtonParams
open Verif.NewtonParams Verif.Spec Setting

variable {K : Type} [Field K]

/-- The keyword of a setting. -/
def key (s : Setting K) : String := match s with
  | faceDegree _ => "FaceDegree"
  | cellDegree _ => "CellDegree"
  | gradDegree _ => "GradDegree"
  | sublevel _ => "Sublevel"
  | timeStep _ => "TimeStep"
  | finalTime _ => "FinalTime"
  | timeSave _ => "TimeSave"
  | stabilization _ => "Stabilization"
  | adaptative _ => "AdaptativeStabilization"
  | stabType _ => "StabType"
  | beta _ => "Beta"
  | verbose _ => "Verbose"
  | iterMax _ => "IterMax"
  | epsilon _ => "Epsilon"
  | precomputation _ => "Precomputation"
  | theta _ => "Theta"
  | gamma0 _ => "Gamma0"
  | friction _ => "Friction"
  | threshold _ => "Threshold"
  | dynamic _ => "Dynamic"

/-- The known keywords. -/
def keys : List String := ["FaceDegree", "CellDegree", "GradDegree", "Sublevel", "TimeStep", "FinalTime", "TimeSave",
  "Stabilization", "AdaptativeStabilization", "StabType", "Beta", "Verbose", "IterMax", "Epsilon", "Precomputation",
  "Theta", "Gamma0", "Friction", "Threshold", "Dynamic"]

theorem key_mem (s : Setting K) : key s ∈ keys := by cases s <;> simp [key, keys]

theorem keys_ne_end {k : String} (h : k ∈ keys) : k ≠ "EndParameters" := by
  rintro rfl
  simp [keys] at h

theorem rdReal_num {num : K → Tok K} (hn : WritesReals num) (prev x : K) (ts : List (Tok K)) :
    rdReal prev (num x :: ts) = (x, ts) := by
  obtain ⟨ip, rest, e⟩ := hn x
  rw [e]; rfl

theorem rdSteps_write {num : K → Tok K} (hn : WritesReals num) (l : List (K × Int)) (ts : List (Tok K)) :
    rdSteps l.length ((l.flatMap fun s => [num s.1, .int s.2]) ++ ts) = (l, ts) := by
  induction l with
  | nil => rfl
  | cons a l ih =>
    simp only [List.length_cons, List.flatMap_cons, List.cons_append, List.nil_append, rdSteps, rdReal_num hn]
    simp only [rdInt, ih]

theorem rdSaves_write {num : K → Tok K} (hn : WritesReals num) (l : List K) (ts : List (Tok K)) :
    rdSaves l.length (l.map num ++ ts) = (l, ts) := by
  induction l with
  | nil => rfl
  | cons a l ih => simp only [List.length_cons, List.map_cons, List.cons_append, rdSaves, rdReal_num hn, ih]

/-- A setting written in the file is read back. -/
theorem directive_write {num : K → Tok K} (hn : WritesReals num) (s : Setting K) (p : Params K) (ts : List (Tok K)) :
    ∃ rest, s.write num ++ ts = .word (key s) :: rest ∧ directive (key s) p rest = .ok (some (s.apply p, ts)) := by
  cases s with
  | timeStep l =>
    refine ⟨_, rfl, ?_⟩
    simp [directive, key, rdInt, rdSteps_write hn, Setting.apply]
  | timeSave l =>
    refine ⟨_, rfl, ?_⟩
    simp [directive, key, rdInt, rdSaves_write hn, Setting.apply]
  | stabType t => refine ⟨_, rfl, ?_⟩; cases t <;> simp [directive, key, rdWord, Tok.text, stabName, Setting.apply]
  | friction f => refine ⟨_, rfl, ?_⟩; cases f <;> simp [directive, key, rdWord, Tok.text, frictionName, Setting.apply]
  | stabilization b =>
    refine ⟨_, rfl, ?_⟩; cases b <;> simp [directive, key, rdWord, Tok.text, boolTok, NewtonParams.isTrue, Setting.apply]
  | adaptative b =>
    refine ⟨_, rfl, ?_⟩; cases b <;> simp [directive, key, rdWord, Tok.text, boolTok, NewtonParams.isTrue, Setting.apply]
  | verbose b =>
    refine ⟨_, rfl, ?_⟩; cases b <;> simp [directive, key, rdWord, Tok.text, boolTok, NewtonParams.isTrue, Setting.apply]
  | precomputation b =>
    refine ⟨_, rfl, ?_⟩; cases b <;> simp [directive, key, rdWord, Tok.text, boolTok, NewtonParams.isTrue, Setting.apply]
  | dynamic b =>
    refine ⟨_, rfl, ?_⟩; cases b <;> simp [directive, key, rdWord, Tok.text, boolTok, NewtonParams.isTrue, Setting.apply]
  | _ => refine ⟨_, rfl, ?_⟩; simp [directive, key, rdInt, rdReal_num hn, Setting.apply]

/-- The last keyword read. -/
def lastKey (kw : String) (l : List (Setting K)) : String := (l.getLast?.map key).getD kw

/-- The loop over written settings. -/
theorem loop_settings {num : K → Tok K} (hn : WritesReals num) (l : List (Setting K)) (n : Nat) (kw : String)
    (p : Params K) (tail : List (Tok K)) :
    (let w := rdWord kw (l.flatMap (write num) ++ tail); loop (n + l.length) w.1 p w.2) =
    (let w := rdWord (lastKey kw l) tail; loop n w.1 (applyAll p l) w.2) := by
  induction l generalizing kw p with
  | nil => rfl
  | cons s l ih =>
    obtain ⟨rest, e, h⟩ := directive_write hn s p (l.flatMap (write num) ++ tail)
    have e' : (s :: l).flatMap (write num) ++ tail = .word (key s) :: rest := by
      rw [List.flatMap_cons, List.append_assoc, e]
    rw [e']
    have lk : lastKey kw (s :: l) = lastKey (key s) l := by
      unfold lastKey
      rw [List.getLast?_cons]
      cases h : l.getLast? <;> simp
    rw [lk]
    show loop (n + (l.length + 1)) (key s) p rest = _
    rw [← Nat.add_assoc, loop, if_neg (keys_ne_end (key_mem s)), h]
    exact ih (key s) (s.apply p)

/-- On a broken stream a known keyword is accepted again and again. -/
theorem directive_nil {kw : String} (h : kw ∈ keys) (p : Params K) : ∃ p', directive kw p [] = .ok (some (p', [])) := by
  have z : ∀ n : Nat, (rdSaves n ([] : List (Tok K))).2 = [] := fun n => by
    induction n with
    | zero => rfl
    | succ n ih => simp only [rdSaves, rdReal]; exact ih
  simp only [keys, List.mem_cons, List.not_mem_nil, or_false] at h
  rcases h with h | h | h | h | h | h | h | h | h | h | h | h | h | h | h | h | h | h | h | h <;> subst h
  case inr.inr.inr.inr.inr.inr.inl =>
    refine ⟨{ p with nSave := p.nSave, saves := (rdSaves p.nSave.toNat ([] : List (Tok K))).1 }, ?_⟩
    simp [directive, rdInt, z]
  all_goals
    simp [directive, rdInt, rdReal, rdWord, rdSteps]

theorem loop_nil {kw : String} (h : kw ∈ keys) (n : Nat) (p : Params K) : loop n kw p [] = .ok none := by
  induction n generalizing p with
  | zero => rfl
  | succ n ih =>
    obtain ⟨p', e⟩ := directive_nil h p
    rw [loop, if_neg (keys_ne_end h), e]
    exact ih p'

theorem directive_unknown {kw : String} (h : kw ∉ keys) (p : Params K) (ts : List (Tok K)) :
    directive kw p ts = .ok none := by
  simp only [keys, List.mem_cons, List.not_mem_nil, or_false, not_or] at h
  obtain ⟨h1, h2, h3, h4, h5, h6, h7, h8, h9, h10, h11, h12, h13, h14, h15, h16, h17, h18, h19, h20⟩ := h
  simp only [directive, h1, h2, h3, h4, h5, h6, h7, h8, h9, h10, h11, h12, h13, h14, h15, h16, h17, h18, h19, h20,
    if_false]

theorem lastKey_mem (kw : String) {l : List (Setting K)} (h : l ≠ []) : lastKey kw l ∈ keys := by
  unfold lastKey
  rw [List.getLast?_eq_some_getLast h]
  exact key_mem _

/-- A loop that runs for more rounds has run for fewer. -/
theorem loop_running {m : Nat} : ∀ {n : Nat} {kw : String} {p : Params K} {ts : List (Tok K)}, n ≤ m →
    loop m kw p ts = .ok none → loop n kw p ts = .ok none := by
  induction m with
  | zero => intro n kw p ts h e; obtain rfl : n = 0 := by omega
            rfl
  | succ m ih =>
    intro n kw p ts h e
    cases n with
    | zero => rfl
    | succ n =>
      rw [loop] at e ⊢
      split at e
      · simp at e
      · rename_i hk
        rw [if_neg hk]
        rcases hd : directive kw p ts with r | _ | _
        · rw [hd] at e
          rcases r with _ | ⟨p', ts'⟩
          · simp at e
          · exact ih (by omega) e
        · rw [hd] at e; simp at e
        · rw [hd] at e; simp at e

theorem still_running_of_le {n m : Nat} (h : n ≤ m) {p : Params K} {ts : List (Tok K)} (e : NewtonParams.read m p ts = .ok none) :
    NewtonParams.read n p ts = .ok none := by
  unfold NewtonParams.read at e ⊢
  simp only at e ⊢
  split at e
  · simp at e
  · rename_i hk
    rw [if_neg hk]
    exact loop_running h e

end Verif.Lemmas.NewtonParams
