import Verif.Lemmas.GmSimplex
/-!
C148: measure and quadrature of polyhedral cells.
-/
namespace Verif.Props.Polyhedron
open Verif Verif.Spec Verif.Polyhedron Verif.Lemmas.Polyhedron Verif.Lemmas.GrundMoeller

/-- The volume inside a closed surface does not depend on the point it is computed from. -/
theorem c148_apex (z z' : P3 ℝ) (fs : List (List (P3 ℝ) × Bool)) (hc : ClosedSurface fs) :
    surfVol z fs = surfVol z' fs := surfVol_eq two_ne_zero z z' fs hc

/-- `measure` of a convex polyhedron with more than four vertices is its volume, whatever the order of its faces and
the direction in which their vertices are listed; only faces with more than four vertices need to be flat. -/
theorem c148_measure_partial (c : Cell ℝ) (h5 : 5 ≤ c.pts.length) (fs : List (List (P3 ℝ) × Bool))
    (hfs : fs.map Prod.fst = c.faces) (hcl : ClosedSurface fs) (hc : ConvexSurface c.pts fs)
    (h3 : ∀ f ∈ c.faces, 3 ≤ f.length) (hpl : ∀ f ∈ c.faces, 5 ≤ f.length → Planar f) (z : P3 ℝ) :
    measure c = .ok (surfVol z fs) := by
  rw [measure_surf c h5 fs hfs hc h3 hpl, surfVol_eq two_ne_zero _ z fs hcl]

/-- `measure` of a tetrahedron. -/
theorem c148_tetra (p0 p1 p2 p3 : P3 ℝ) (fs : List (List (P3 ℝ))) :
    measure ⟨[p0, p1, p2, p3], fs⟩ = .ok (|vol6 p0 p1 p2 p3| / 6) := by
  simp [Polyhedron.measure, splitTets, volumes, volume_vol6, Outcome.bind]

/-- Degrees from 1 to 669: the rule integrates polynomials over each of the tetrahedra, and its weights sum to
`measure`. -/
theorem c148_exact {c : Cell ℝ} (h4 : 4 ≤ c.pts.length) {d : ℕ} (h0 : d ≠ 0) (h : d ≤ 669) (f : Poly3) (hf : f.DegLE d) :
    ∃ ts l v, splitTets c = .ok ts ∧ integrate c d = .ok l ∧ measure c = .ok v ∧ (l.map Prod.snd).sum = v ∧
      quadSum l (fun p => f.eval p.x p.y p.z) =
        (ts.map fun t => tetInt (fun p => f.eval p.x p.y p.z) t.1 t.2.1 t.2.2.1 t.2.2.2).sum := by
  obtain ⟨ts, hts⟩ : ∃ ts, splitTets c = .ok ts := by
    unfold splitTets
    split
    · exact ⟨_, rfl⟩
    · rw [if_neg (by omega)]; exact ⟨_, rfl⟩
  obtain ⟨l, h1, h2⟩ := tetRules_exact h ts f hf
  obtain ⟨l', h1', h2'⟩ := tetRules_exact h ts [(1, 0, 0, 0)] (by simp [Poly3.DegLE])
  rw [h1] at h1'
  cases h1'
  refine ⟨ts, l, volumes ts, rfl.trans hts, ?_, ?_, ?_, h2⟩
  · unfold integrate
    rw [if_neg h0, if_neg (by omega), hts, Outcome.bind_ok, h1]
  · unfold Polyhedron.measure; rw [hts, Outcome.bind_ok]
  · have e : (fun p : P3 ℝ => Poly3.eval [(1, 0, 0, 0)] p.x p.y p.z) = fun _ => 1 := by funext p; simp [Poly3.eval]
    rw [e] at h2'
    simp only [tetInt_one] at h2'
    simpa [quadSum, volumes] using h2'

/-- Degree 0: the mean of the vertices with the measure as weight. -/
theorem c148_degree0 {c : Cell ℝ} (h4 : 4 ≤ c.pts.length) :
    ∃ v, measure c = .ok v ∧ integrate c 0 = .ok [(mean3 c.pts, v)] := by
  obtain ⟨ts, l, v, -, -, h, -⟩ := c148_exact h4 one_ne_zero (by norm_num) [] (by simp [Poly3.DegLE])
  exact ⟨v, h, by unfold integrate; rw [if_pos rfl, h, Outcome.bind_ok]; rfl⟩

/-- Fewer than four points: an exception for positive degrees, a failed assertion in `measure` and for degree 0. -/
theorem c148_few {c : Cell ℝ} (h : c.pts.length < 4) (d : ℕ) :
    (d ≠ 0 → (integrate c d).Throws) ∧ (integrate c 0).IsUB ∧ (measure c).IsUB := by
  have hs : splitTets c = .ub "assert(pts.size() >= 4)" := by
    unfold splitTets
    split
    · next e => rw [e] at h; simp at h
    · rw [if_pos h]
  have hm : measure c = .ub "assert(pts.size() >= 4)" := by unfold Polyhedron.measure; rw [hs, Outcome.bind_ub]
  refine ⟨fun hd => ?_, ?_, by rw [hm]; trivial⟩
  · unfold integrate; rw [if_neg hd, if_pos h]; trivial
  · unfold integrate; rw [if_pos rfl, hm, Outcome.bind_ub]; trivial

/-- A pentagonal prism of height 2 over the pentagon (0,0), (2,0), (3,1), (2,2), (0,2). -/
def prism : Cell ℚ where
  pts := [⟨0,0,0⟩, ⟨2,0,0⟩, ⟨3,1,0⟩, ⟨2,2,0⟩, ⟨0,2,0⟩, ⟨0,0,2⟩, ⟨2,0,2⟩, ⟨3,1,2⟩, ⟨2,2,2⟩, ⟨0,2,2⟩]
  faces := [[⟨0,0,0⟩, ⟨2,0,0⟩, ⟨3,1,0⟩, ⟨2,2,0⟩, ⟨0,2,0⟩], [⟨0,0,2⟩, ⟨2,0,2⟩, ⟨3,1,2⟩, ⟨2,2,2⟩, ⟨0,2,2⟩],
    [⟨0,0,0⟩, ⟨2,0,0⟩, ⟨2,0,2⟩, ⟨0,0,2⟩], [⟨2,0,0⟩, ⟨3,1,0⟩, ⟨3,1,2⟩, ⟨2,0,2⟩], [⟨3,1,0⟩, ⟨2,2,0⟩, ⟨2,2,2⟩, ⟨3,1,2⟩],
    [⟨2,2,0⟩, ⟨0,2,0⟩, ⟨0,2,2⟩, ⟨2,2,2⟩], [⟨0,2,0⟩, ⟨0,0,0⟩, ⟨0,0,2⟩, ⟨0,2,2⟩]]

instance (fs : List (List (P3 ℚ) × Bool)) : Decidable (ClosedSurface fs) :=
  inferInstanceAs (Decidable (List.Perm _ _))
instance (pts : List (P3 ℚ)) (fs : List (List (P3 ℚ) × Bool)) : Decidable (ConvexSurface pts fs) :=
  inferInstanceAs (Decidable (∀ _ ∈ _, _))

/-- The hypotheses hold for the prism, with its bottom listed in the other direction. -/
example : ClosedSurface (prism.faces.zip [false, true, true, true, true, true, true]) ∧
    ConvexSurface prism.pts (prism.faces.zip [false, true, true, true, true, true, true]) ∧
    surfVol ⟨0, 0, 0⟩ (prism.faces.zip [false, true, true, true, true, true, true]) = 10 ∧
    measure prism = .ok 10 := by decide +kernel

/-- A prism of height 1 over the chevron (0,3), (-3,0), (0,2), (3,0). -/
def chevron : Cell ℚ where
  pts := [⟨0,3,0⟩, ⟨-3,0,0⟩, ⟨0,2,0⟩, ⟨3,0,0⟩, ⟨0,3,1⟩, ⟨-3,0,1⟩, ⟨0,2,1⟩, ⟨3,0,1⟩]
  faces := [[⟨0,3,0⟩, ⟨-3,0,0⟩, ⟨0,2,0⟩, ⟨3,0,0⟩], [⟨0,3,1⟩, ⟨-3,0,1⟩, ⟨0,2,1⟩, ⟨3,0,1⟩],
    [⟨0,3,0⟩, ⟨-3,0,0⟩, ⟨-3,0,1⟩, ⟨0,3,1⟩], [⟨-3,0,0⟩, ⟨0,2,0⟩, ⟨0,2,1⟩, ⟨-3,0,1⟩],
    [⟨0,2,0⟩, ⟨3,0,0⟩, ⟨3,0,1⟩, ⟨0,2,1⟩], [⟨3,0,0⟩, ⟨0,3,0⟩, ⟨0,3,1⟩, ⟨3,0,1⟩]]

/-- Cells that are not convex are measured wrongly: the prism over a chevron has volume 3 and measure 6. -/
theorem c148_nonconvex : ∃ (c : Cell ℚ) (fs : List (List (P3 ℚ) × Bool)), fs.map Prod.fst = c.faces ∧ ClosedSurface fs ∧
    (∀ f ∈ c.faces, Planar f) ∧ surfVol ⟨0, 0, 0⟩ fs = 3 ∧ measure c = .ok 6 := by
  refine ⟨chevron, chevron.faces.zip [false, true, true, true, true, true], by decide +kernel, by decide +kernel, ?_,
    by decide +kernel, by decide +kernel⟩
  intro f hf
  simp only [chevron, List.mem_cons, List.not_mem_nil, or_false] at hf
  rcases hf with rfl | rfl | rfl | rfl | rfl | rfl
  · exact ⟨⟨0, 0, 1⟩, 0, by decide +kernel, by decide +kernel⟩
  · exact ⟨⟨0, 0, 1⟩, 1, by decide +kernel, by decide +kernel⟩
  · exact ⟨⟨1, -1, 0⟩, -3, by decide +kernel, by decide +kernel⟩
  · exact ⟨⟨2, -3, 0⟩, -6, by decide +kernel, by decide +kernel⟩
  · exact ⟨⟨2, 3, 0⟩, 6, by decide +kernel, by decide +kernel⟩
  · exact ⟨⟨1, 1, 0⟩, 3, by decide +kernel, by decide +kernel⟩

end Verif.Props.Polyhedron
