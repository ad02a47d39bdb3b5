import Verif.Lemmas.Obstacle
/-!
C150, C151: the obstacle problem.
-/
namespace Verif.Props.Obstacle
open Verif Verif.Obstacle Verif.Spec.Obstacle Verif.Lemmas.Obstacle Finset

variable {K : Type} [CommRing K]

/-- C150: with cell degree 0 the assembled system is square, of size cells + `fbs` × free faces, and a vector solves it if
and only if its expansion is in equilibrium; the expansion satisfies the boundary conditions, is in contact on the active
cells and has no force on the others. -/
theorem c150_system (mode : Mode) (m : Mesh) (hm : FacesOk m) (inA : List Bool) (hA : inA.length = m.cells.length)
    (fbs : Nat) (gamma : Nat → K) (proj : Nat → Nat → K) (loc : Nat → Loc K) :
    ∃ t S, construct mode m inA = .ok t ∧ system mode m t 1 fbs gamma proj loc = .ok S ∧
      S.size = m.cells.length + fbs * ((List.range m.bnd.length).filter fun f => decide (¬ (mode = .strong ∧ m.bnd[f]? = some true))).length ∧
      ∀ x, ∃ u b, expand mode m t 1 fbs gamma proj x = .ok (u, b) ∧ Dirichlet mode m proj u ∧ OnSet inA gamma u b ∧
        ((∀ r < S.size, ∑ c ∈ range S.size, S.lhs r c * x c = S.rhs r) ↔ Equilibrium mode m fbs loc u b) := by
  obtain ⟨S, s1, s2, s3⟩ := system_iff mode m hm inA hA fbs gamma proj loc
  refine ⟨tabs mode m inA, S, construct_eq mode m inA hA, s1, ?_, fun x => ⟨_, _, expand_eq mode m inA fbs gamma proj x,
    solOf_dirichlet _ _ _ _ _ _ _, solOf_onSet _ _ _ _ _ _ _, s3 x⟩⟩
  rw [s2, free_count]

/-- C150: every state that satisfies the boundary conditions and matches the active set is the expansion of a vector. -/
theorem c150_surj (mode : Mode) (m : Mesh) (inA : List Bool) (hA : inA.length = m.cells.length) (fbs : Nat)
    (gamma : Nat → K) (proj : Nat → Nat → K) (u : Dofs K) (b : Nat → K) (hu : Dirichlet mode m proj u)
    (hs : OnSet inA gamma u b) (t : Tabs) (ht : construct mode m inA = .ok t) :
    ∃ x u' b', expand mode m t 1 fbs gamma proj x = .ok (u', b') ∧ SameDofs m fbs u' u ∧ ∀ T < m.cells.length, b' T = b T := by
  rw [construct_eq mode m inA hA] at ht
  obtain rfl := Outcome.ok.inj ht
  obtain ⟨x, h1, h2⟩ := solOf_surj mode m inA hA fbs gamma proj u b hu hs
  exact ⟨x, _, _, expand_eq mode m inA fbs gamma proj x, h1, h2⟩

/-- C150: with more than one unknown per cell the expansion of a solution is undefined on every nonempty mesh. -/
theorem c150_degree (mode : Mode) (m : Mesh) (hm : m.cells ≠ []) (cbs : Nat) (hc : 2 ≤ cbs) (t : Tabs) (fbs : Nat)
    (gamma : Nat → K) (proj : Nat → Nat → K) (x : Nat → K) : (expand mode m t cbs fbs gamma proj x).IsUB := by
  unfold expand
  rw [if_neg]
  · trivial
  · have : 0 < m.cells.length := List.length_pos_iff.2 hm
    intro h
    have := Nat.mul_le_mul_left m.cells.length hc
    omega

/-- C151: with a direct solver that solves, the loop runs to its end, and if it is left by `break` and the obstacle is not
positive, the result satisfies the boundary conditions, is in equilibrium with its contact forces, and complementarity
holds up to the tolerance. -/
theorem c151_stop_partial (P : Problem) (hm : FacesOk P.mesh) (hs : Solved P)
    (hg : ∀ T < P.mesh.cells.length, P.gamma T ≤ 0) (tol : ℝ) (maxiter : Nat) :
    ∃ u b stop, solver P tol maxiter = .ok ((u, b), stop) ∧
      (stop = true → Dirichlet P.mode P.mesh P.proj u ∧ Equilibrium P.mode P.mesh P.fbs P.loc u b ∧ NearlyCompl P tol (u, b)) := by
  obtain ⟨⟨⟨u, b⟩, f⟩, hr⟩ := loop_ok P hm hs tol maxiter (⟨fun _ => 0, fun _ _ => 0⟩, fun _ => 1)
  refine ⟨u, b, f, hr, ?_⟩
  rintro rfl
  cases maxiter with
  | zero => simp [loop] at hr
  | succ n =>
    obtain ⟨s', s1, s2⟩ := step_ok P hm hs (⟨fun _ => 0, fun _ _ => 0⟩, fun _ => 1)
    rw [loop, s1, Outcome.bind_ok] at hr
    split_ifs at hr with hd
    · simp only [Outcome.ok.injEq, Prod.mk.injEq, and_true] at hr
      subst hr
      exact ⟨s2.1, s2.2.2, near_mono P _ _ hd.le _ (near_first P hg _ s2)⟩
    · obtain ⟨h1, h2, h3⟩ := loop_near P hm hs tol n _ (active_length _ _) s' _ s2 hr
      exact ⟨h2, h3, h1⟩

/-- C151: when a step does not change the active set, the state is a fixed point, and it solves the discrete obstacle
problem: complementarity holds and so does the variational inequality. -/
theorem c151_fixed (P : Problem) (hm : FacesOk P.mesh) (hs : Solved P) (s : Dofs ℝ × (Nat → ℝ)) :
    ∃ s', step P s = .ok s' ∧ Dirichlet P.mode P.mesh P.proj s'.1 ∧
      Equilibrium P.mode P.mesh P.fbs P.loc s'.1 s'.2 ∧
      (active P s' = active P s → step P s' = .ok s' ∧ Complementary P.mesh P.gamma s'.1 s'.2 ∧
        ∀ v, Dirichlet P.mode P.mesh P.proj v → (∀ T < P.mesh.cells.length, P.gamma T ≤ v.cell T) →
          load P.mode P.mesh P.fbs P.loc ⟨fun T => v.cell T - s'.1.cell T, fun f i => v.face f i - s'.1.face f i⟩ ≤
          form P.mesh P.fbs P.loc s'.1 ⟨fun T => v.cell T - s'.1.cell T, fun f i => v.face f i - s'.1.face f i⟩) := by
  obtain ⟨s', s1, s2⟩ := step_ok P hm hs s
  refine ⟨s', s1, s2.1, s2.2.2, fun ha => ?_⟩
  have hc := fixed_complementary P s s' s2.2.1 ha
  exact ⟨by rw [step_congr P s' s ha, s1], hc, fun v hv hg =>
    variational P.mode P.mesh P.fbs P.loc P.gamma P.proj s'.1 s'.2 s2.1 s2.2.2 hc v hv hg _ rfl⟩

/-- C151: with a positive obstacle the first iteration can stop the solver below the obstacle. -/
theorem c151_positive_violated : FacesOk highObstacle.mesh ∧ Solved highObstacle ∧ ∀ tol : ℝ, 0 < tol → ∀ n,
    ∃ u b, solver highObstacle tol (n + 1) = .ok ((u, b), true) ∧ u.cell 0 = 0 ∧ highObstacle.gamma 0 = 1 / 2 := by
  refine ⟨high_faces, ?_, ?_⟩
  · intro inA t S h1 h2 r hr
    have hl : inA.length = highObstacle.mesh.cells.length := by
      by_contra h
      unfold construct at h1
      rw [if_neg h] at h1
      cases h1
    obtain ⟨a, rfl⟩ := List.length_eq_one_iff.1 (show inA.length = 1 from hl)
    rw [construct_eq _ _ [a] rfl] at h1
    obtain rfl := Outcome.ok.inj h1
    obtain ⟨S', s1, s2, s3, s4⟩ := high_system a
    rw [s1] at h2
    obtain rfl := Outcome.ok.inj h2
    rw [s2] at hr ⊢
    obtain rfl : r = 0 := by omega
    simp [s3, highObstacle]
  · intro tol ht n
    have ha : active highObstacle (⟨fun _ => 0, fun _ _ => 0⟩, fun _ => 1) = [false] := by
      simp [active, highObstacle]; norm_num
    obtain ⟨S, s1, s2, s3, s4⟩ := high_system false
    have hst : step highObstacle (⟨fun _ => 0, fun _ _ => 0⟩, fun _ => 1) = .ok
        (solOf highObstacle.mode highObstacle.mesh [false] highObstacle.fbs highObstacle.gamma highObstacle.proj (highObstacle.solve S),
         forceOf highObstacle.mode highObstacle.mesh [false] highObstacle.fbs (highObstacle.solve S)) := by
      rw [step, ha, construct_eq _ _ [false] rfl, Outcome.bind_ok, s1, Outcome.bind_ok, expand_eq]
    have h0 : (solOf highObstacle.mode highObstacle.mesh [false] highObstacle.fbs highObstacle.gamma highObstacle.proj
        (highObstacle.solve S)).cell 0 = 0 := by simpa [solOf, highObstacle] using s4
    refine ⟨solOf highObstacle.mode highObstacle.mesh [false] highObstacle.fbs highObstacle.gamma highObstacle.proj
      (highObstacle.solve S), forceOf highObstacle.mode highObstacle.mesh [false] highObstacle.fbs (highObstacle.solve S),
      ?_, h0, rfl⟩
    rw [solver, loop, hst, Outcome.bind_ok, if_pos]
    simp only [Obstacle.dist]
    rw [show highObstacle.mesh.cells.length = 1 from rfl, show highObstacle.mesh.bnd.length = 0 from rfl]
    simp only [List.range_one, List.map_cons, List.map_nil, h0]
    simp [ht]

/-- Two cells that share a face, one boundary face each. -/
example : ∃ t S, construct .strong ⟨[true, false, true], [[0, 1], [1, 2]]⟩ [true, false] = .ok t ∧
    system (K := ℚ) .strong ⟨[true, false, true], [[0, 1], [1, 2]]⟩ t 1 1 (fun _ => 0) (fun _ _ => 7)
      (fun _ => ⟨fun i j => if i = j then 2 else -1, fun _ => 1⟩) = .ok S ∧ S.size = 3 ∧ S.rhs 0 = 8 ∧ S.lhs 0 2 = 1 :=
  ⟨_, _, rfl, rfl, rfl, by decide +kernel, by decide +kernel⟩

example : ∃ u b, solver highObstacle 1 1 = .ok ((u, b), true) := by
  obtain ⟨u, b, h, _⟩ := c151_positive_violated.2.2 1 one_pos 0
  exact ⟨u, b, h⟩

/-- The state above the obstacle 0 under an upward load is complementary, with no force. -/
example : Complementary ⟨[], [[]]⟩ (fun _ => 0) ⟨fun _ => 3, fun _ _ => 0⟩ (fun _ => 0) := by
  intro T _
  norm_num

end Verif.Props.Obstacle
