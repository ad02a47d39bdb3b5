import Verif.Lemmas.NewtonParams
/-!
Parameters of the Newton solver: C105, C106.
-/
namespace Verif.Props.NewtonParams
open Verif.NewtonParams Verif.Spec Verif.Lemmas.NewtonParams Setting

variable {K : Type} [Field K]

/-- C105. A complete file is read: `readParameters` returns `true`, and the parameters are those before with all
settings applied in order. -/
theorem c105_file_partial {num : K → Tok K} (hn : WritesReals num) (l : List (Setting K)) (p : Params K) :
    read (l.length + 1) p (file num l) = .ok (some (true, applyAll p l)) := by
  have h := loop_settings hn l 1 "BeginParameters" p [.word "EndParameters"]
  show (let w := rdWord "BeginParameters" (l.flatMap (write num) ++ [.word "EndParameters"]);
    loop (l.length + 1) w.1 p w.2) = _
  rw [Nat.add_comm, h]
  rfl

/-- C105. A file with a keyword that is not known is refused; the settings before it stay. -/
theorem c105_unknown {num : K → Tok K} (hn : WritesReals num) (l : List (Setting K)) (kw : String)
    (hk : kw ∉ keys) (he : kw ≠ "EndParameters") (rest : List (Tok K)) (p : Params K) :
    read (l.length + 1) p (cutFile num l ++ .word kw :: rest) = .ok (some (false, applyAll p l)) := by
  have h := loop_settings hn l 1 "BeginParameters" p (.word kw :: rest)
  show (let w := rdWord "BeginParameters" (l.flatMap (write num) ++ .word kw :: rest);
    loop (l.length + 1) w.1 p w.2) = _
  rw [Nat.add_comm, h]
  show loop 1 kw (applyAll p l) rest = _
  rw [loop, if_neg he, directive_unknown hk]
  rfl

/-- C105. `true` and `True`, and no other word, switch a logical setting on. -/
theorem c105_logical (p : Params K) (v : String) :
    let file (kw : String) : List (Tok K) := [.word "BeginParameters", .word kw, .word v, .word "EndParameters"]
    let on : Bool := decide (v = "true" ∨ v = "True")
    read 2 p (file "Verbose") = .ok (some (true, { p with verbose := on })) ∧
    read 2 p (file "Precomputation") = .ok (some (true, { p with precomp := on })) ∧
    read 2 p (file "Dynamic") = .ok (some (true, { p with dynamic := on })) ∧
    read 2 p (file "AdaptativeStabilization") = .ok (some (true, { p with adaptStab := on })) ∧
    read 2 p (file "Stabilization") =
      .ok (some (true, if on then { p with stab := true } else { p with stab := false, stabType := .no })) := by
  have h : NewtonParams.isTrue v = decide (v = "true" ∨ v = "True") := by
    unfold NewtonParams.isTrue
    by_cases h1 : v = "true" <;> by_cases h2 : v = "True" <;> simp [h1, h2]
  simp only [← h]
  exact ⟨rfl, rfl, rfl, rfl, by cases hv : NewtonParams.isTrue v <;> simp [NewtonParams.read, rdWord, Tok.text, loop, directive, Outcome.bind, hv]⟩

/-- C105. A file that does not start with `BeginParameters` is refused. -/
theorem c105_begin (t : Tok K) (ts : List (Tok K)) (h : t.text ≠ "BeginParameters") (n : Nat) (p : Params K) :
    read n p (t :: ts) = .ok (some (false, p)) := by
  simp [NewtonParams.read, rdWord, h]

/-- C105 fails: `readParameters` never returns on a file with at least one setting whose last line `EndParameters`
is missing. -/
theorem c105_cut_violated {num : K → Tok K} (hn : WritesReals num) {l : List (Setting K)} (hl : l ≠ []) (n : Nat)
    (p : Params K) : read n p (cutFile num l) = .ok none := by
  have key : ∀ n, read (n + l.length) p (cutFile num l) = .ok none := fun n => by
    have h := loop_settings hn l n "BeginParameters" p []
    show (let w := rdWord "BeginParameters" (l.flatMap (write num)); loop (n + l.length) w.1 p w.2) = _
    rw [List.append_nil] at h
    rw [h]
    exact loop_nil (lastKey_mem _ hl) n _
  exact still_running_of_le (Nat.le_add_right n l.length) (key n)

/-- C105 fails: a word in place of a number is not reported either; `readParameters` never returns. -/
theorem c105_number_violated (w : String) (rest : List (Tok K)) (n : Nat) (p : Params K) :
    read n p (.word "BeginParameters" :: .word "FaceDegree" :: .word w :: rest) = .ok none := by
  show loop n "FaceDegree" p (.word w :: rest) = _
  cases n with
  | zero => rfl
  | succ n =>
    rw [loop, if_neg (by decide)]
    show loop n "FaceDegree" { p with face := 0 } [] = _
    exact loop_nil (by decide) n _

/-- C106. The setters and getters of the face and cell degree, the stabilization parameter and the two flags
round-trip. -/
theorem c106_getters_partial (p : Params K) :
    (∀ n, getFace ((Setter.face n).run p) = n) ∧ (∀ n, getCell ((Setter.cell n).run p) = n) ∧
    (∀ x, getBeta ((Setter.beta x).run p) = x) ∧ (∀ b, getVerbose ((Setter.verbose b).run p) = b) ∧
    (∀ b, getPrecomp ((Setter.precomp b).run p) = b) := ⟨fun _ => rfl, fun _ => rfl, fun _ => rfl, fun _ => rfl, fun _ => rfl⟩

/-- C106 fails: `getGradDegree` ignores `setGradDegree`. -/
theorem c106_getter_violated (p : Params K) (n : Int) : getGrad ((Setter.grad n).run p) = p.face := rfl

/-- C106. If the requested cell degree is not negative and the requested gradient degree is at least the face degree
used, the solver works with degrees `cell ∈ {face - 1, face, face + 1}`, `grad ≥ face`, and integrates the
behavior exactly for products of gradients. -/
theorem c106_degrees_partial (rp : Params K) (hc : 0 ≤ rp.cell) (hg : (construct rp).face ≤ rp.grad)
    (hb : rp.face < 2 ^ 31) (hb' : rp.cell < 2 ^ 31) (hb'' : rp.grad < 2 ^ 31) :
    ∃ c f g : Nat, (construct rp).degrees = (c, f, g) ∧ c ≤ f + 1 ∧ f ≤ c + 1 ∧ f ≤ g ∧
      (construct rp).quadDegree = 2 * g ∧ (0 ≤ rp.face → (f : Int) = rp.face) ∧ (g : Int) = rp.grad := by
  obtain ⟨F, hF⟩ : ∃ F, F = (construct rp).face := ⟨_, rfl⟩
  obtain ⟨C, hC⟩ : ∃ C, C = (construct rp).cell := ⟨_, rfl⟩
  obtain ⟨G, hG⟩ : ∃ G, G = (construct rp).grad := ⟨_, rfl⟩
  have e1 : F = if rp.face < 0 then 1 else rp.face := hF
  have e2 : C = if F - 1 > rp.cell ∨ rp.cell > F + 1 then F else rp.cell := by rw [hC, e1]; rfl
  have e3 : G = if rp.grad < F then F else rp.grad := by rw [hG, e1]; rfl
  rw [← hF] at hg
  have f0 : 0 ≤ F ∧ F < 2 ^ 31 := by rw [e1]; split <;> omega
  have c0 : 0 ≤ C ∧ C < 2 ^ 31 ∧ C ≤ F + 1 ∧ F ≤ C + 1 := by rw [e2]; split <;> omega
  have g0 : G = rp.grad := by rw [e3, if_neg (by omega)]
  refine ⟨C.toNat, F.toNat, G.toNat, ?_, by omega, by omega, by omega, ?_, ?_, by omega⟩
  · unfold Solver.degrees
    rw [← hF, ← hC, ← hG]
    simp only [toSize, Prod.mk.injEq]
    refine ⟨?_, ?_, ?_⟩ <;> omega
  · show toSize (2 * rp.grad) = _
    unfold toSize
    omega
  · intro h0
    rw [e1, if_neg (by omega)]
    omega

/-- C106 fails: with face degree 2 and gradient degree 0 the gradients are of degree 2, but the behavior is
integrated with degree 0. -/
theorem c106_quadrature_violated : ∃ rp : Params ℚ, 0 ≤ rp.face ∧ 0 ≤ rp.cell ∧ 0 ≤ rp.grad ∧
    (construct rp).degrees = (2, 2, 2) ∧ (construct rp).quadDegree = 0 :=
  ⟨{ (default : Params ℚ) with face := 2, cell := 2, grad := 0 }, by decide, by decide, by decide, by decide, by decide⟩

/-- C106 fails: face degree 0 with cell degree -1 is accepted, and the cells get degree `2^64 - 1`. -/
theorem c106_cell_violated : ∃ rp : Params ℚ, rp.cell = -1 ∧ (construct rp).degrees = (2 ^ 64 - 1, 0, 1) :=
  ⟨{ (default : Params ℚ) with face := 0, cell := -1 }, by decide, by decide⟩

/-- C106. With the stabilization off nothing is added; with one of the three stabilizations it is the operator. -/
theorem c106_stab_partial {M : Type} (rp : Params K) (ops : Stab → M) :
    (rp.stab = false → stabMatrix rp ops = .ok none) ∧
    (rp.stab = true → rp.stabType ≠ .no → stabMatrix rp ops = .ok (some (ops rp.stabType))) := by
  refine ⟨fun h => by simp [stabMatrix, h], fun h h' => ?_⟩
  rcases ht : rp.stabType with _ | _ | _ | _ <;> simp_all [stabMatrix]

/-- C106 fails: a parameters file with the line `StabType NO` makes the assembly of the first cell undefined, or
throw if the operators are precomputed. -/
theorem c106_stab_violated {num : K → Tok K} (hn : WritesReals num) {M : Type} (ops : Nat → Stab → M) (ncells i : Nat) :
    ∃ rp : Params K, read 2 default (file num [stabType .no]) = .ok (some (true, rp)) ∧
      (stabMatrix rp (ops i)).IsUB ∧ stabPrecomputed rp ops ncells i = .throws "out_of_range" :=
  ⟨applyAll default [stabType .no], c105_file_partial hn [stabType .no] default, trivial, rfl⟩

/-- Non-vacuity: a way to write rational numbers; a file with two settings. -/
example : WritesReals (fun x : ℚ => Tok.real 0 "" x) := fun x => ⟨0, "", rfl⟩
example : ∃ p : Params ℚ, read 3 default (file (fun x => .real 0 "" x) [faceDegree 2, stabilization false]) =
    .ok (some (true, p)) ∧ p.face = 2 ∧ p.stab = false :=
  ⟨_, c105_file_partial (fun x => ⟨0, "", rfl⟩) [faceDegree 2, stabilization false] default, rfl, rfl⟩
example : "FaceDegre" ∉ keys := by decide

end Verif.Props.NewtonParams
