import Verif.Spec.Silo
import Verif.Model.Silo
import Verif.Lemmas.EarcutTop
/-!
Reading lists of zones back, and orientation of faces.
-/
namespace Verif.Silo
open Verif Verif.Spec Verif.Spec.Silo

theorem cut_flatten {α : Type} (ls : List (List α)) : cutBlocks (ls.map List.length) ls.flatten = some ls := by
  induction ls with
  | nil => rfl
  | cons l ls ih =>
    rw [List.map_cons, List.flatten_cons, cutBlocks, if_neg (by simp), List.drop_left, ih, List.take_left]
    rfl

theorem read_flatMap {cells : List (List Nat)} {g : List Nat → List Nat} {k : Nat} (h : ∀ c ∈ cells, (g c).length = k) :
    readZones (cells.flatMap g) [(k, cells.length)] = some (cells.map g) := by
  unfold readZones
  have e : ([(k, cells.length)].flatMap fun s => List.replicate s.2 s.1) = (cells.map g).map List.length := by
    simp only [List.flatMap_cons, List.flatMap_nil, List.append_nil, List.map_map]
    symm
    rw [List.eq_replicate_iff]
    refine ⟨by simp, fun b hb => ?_⟩
    obtain ⟨c, hc, rfl⟩ := List.mem_map.1 hb
    exact h c hc
  rw [e, List.flatMap_def, cut_flatten]

theorem read_polygons {cells : List (List Nat × Nat)} (h : ∀ c ∈ cells, c.2 = c.1.length) :
    readZones (cells.flatMap fun c => c.1.map (· + 1)) (cells.map fun c => (c.2, 1)) =
      some (cells.map fun c => c.1.map (· + 1)) := by
  unfold readZones
  have e : ((cells.map fun c => (c.2, 1)).flatMap fun s => List.replicate s.2 s.1) =
      (cells.map fun c => c.1.map (· + 1)).map List.length := by
    induction cells with
    | nil => rfl
    | cons c cs ih =>
      rw [List.map_cons, List.flatMap_cons, ih fun x hx => h x (List.mem_cons_of_mem _ hx), h c (by simp)]
      simp
  rw [e, List.flatMap_def, cut_flatten]

section ordered
variable {K : Type} [Field K] [LinearOrder K] [IsStrictOrderedRing K]

theorem vecArea_reverse (l : List (P3 K)) (n : P3 K) : Spec.Silo.dot (vecArea l.reverse) n = -Spec.Silo.dot (vecArea l) n := by
  unfold vecArea Spec.Silo.dot
  simp only [List.map_reverse, Earcut.shoelace_reverse]
  ring

omit [LinearOrder K] [IsStrictOrderedRing K] in
theorem vecArea3 (a b c : P3 K) : vecArea [a, b, c] = cross (sub b a) (sub c b) := by
  simp only [vecArea, cross, sub, shoelace, sides, List.map_cons, List.map_nil, List.rotate_cons_succ, List.rotate_zero,
    List.cons_append, List.nil_append, List.zip_cons_cons, List.zip_nil_right, List.sum_cons, List.sum_nil, P3.mk.injEq]
  refine ⟨?_, ?_, ?_⟩ <;> ring

omit [LinearOrder K] [IsStrictOrderedRing K] in
theorem sum_dot (n : P3 K) (l : List (P3 K)) :
    n.x * (l.map (·.x)).sum + n.y * (l.map (·.y)).sum + n.z * (l.map (·.z)).sum = (l.map (Spec.Silo.dot n)).sum := by
  induction l with
  | nil => simp
  | cons p l ih => simp only [List.map_cons, List.sum_cons, ← ih, Spec.Silo.dot]; ring

theorem dot_bary (n : P3 K) (l : List (P3 K)) :
    dot n (Polyhedron.bary l) = (l.map (Spec.Silo.dot n)).sum / l.length := by
  rw [← sum_dot]
  unfold dot Polyhedron.bary
  simp only
  ring

omit [LinearOrder K] [IsStrictOrderedRing K] in
theorem sum_plane {n : P3 K} {d : K} {l : List (P3 K)} (h : ∀ p ∈ l, Spec.Silo.dot n p = d) :
    (l.map (Spec.Silo.dot n)).sum = l.length * d := by
  induction l with
  | nil => simp
  | cons p l ih =>
    rw [List.map_cons, List.sum_cons, ih fun x hx => h x (List.mem_cons_of_mem _ hx), h p (by simp), List.length_cons]
    push_cast
    ring

theorem sum_side {n : P3 K} {d : K} {l : List (P3 K)} (h : ∀ p ∈ l, Spec.Silo.dot n p ≤ d) :
    (l.map (Spec.Silo.dot n)).sum ≤ l.length * d ∧
      ((∃ p ∈ l, Spec.Silo.dot n p < d) → (l.map (Spec.Silo.dot n)).sum < l.length * d) := by
  induction l with
  | nil => simp
  | cons p l ih =>
    obtain ⟨h1, h2⟩ := ih fun x hx => h x (List.mem_cons_of_mem _ hx)
    have hp := h p (by simp)
    rw [List.map_cons, List.sum_cons, List.length_cons]
    push_cast
    refine ⟨by linarith, fun ⟨q, hq, hlt⟩ => ?_⟩
    rcases List.mem_cons.1 hq with rfl | hq
    · linarith
    · linarith [h2 ⟨q, hq, hlt⟩]

/-- The mean of the cell is behind the plane of the face. -/
theorem outward_pos {n : P3 K} {d : K} {cell face : List (P3 K)} (hne : face ≠ []) (h : Regular n d cell face) :
    0 < dot n (sub (Polyhedron.bary face) (Polyhedron.bary cell)) := by
  have e : dot n (sub (Polyhedron.bary face) (Polyhedron.bary cell)) =
      dot n (Polyhedron.bary face) - dot n (Polyhedron.bary cell) := by unfold dot sub; ring
  have hf : (0 : K) < face.length := by exact_mod_cast List.length_pos_iff.2 hne
  have hc : (0 : K) < cell.length := by
    obtain ⟨p, hp, -⟩ := h.solid
    exact_mod_cast List.length_pos_iff.2 (List.ne_nil_of_mem hp)
  rw [e, dot_bary, dot_bary, sum_plane h.plane, mul_div_cancel_left₀ _ hf.ne', sub_pos, div_lt_iff₀ hc, mul_comm]
  exact (sum_side h.side).2 h.solid

/-- A vector that is orthogonal to two directions orthogonal to `n` is along `n`. -/
theorem parallel {n u v w : P3 K} (hu : dot n u = 0) (hv : dot n v = 0) :
    dot (cross u v) w * dot n n = dot (cross u v) n * dot n w := by
  unfold dot cross at *
  simp only at *
  linear_combination (v.x * (w.y * n.z - w.z * n.y) + v.y * (w.z * n.x - w.x * n.z) + v.z * (w.x * n.y - w.y * n.x)) * hu
    - (u.x * (w.y * n.z - w.z * n.y) + u.y * (w.z * n.x - w.x * n.z) + u.z * (w.x * n.y - w.y * n.x)) * hv

omit [IsStrictOrderedRing K] in
theorem faceOrientation_ok (cell : List (P3 K)) {face : List (P3 K)} (h : 3 ≤ face.length) :
    ∃ o, faceOrientation cell face = .ok o ∧ (o = 1 ∨ o = -1) := by
  match face, h with
  | a :: b :: c :: l, _ =>
    refine ⟨_, rfl, ?_⟩
    split
    · exact Or.inr rfl
    · exact Or.inl rfl

/-- The sign is that of the vector area along the outward normal. -/
theorem faceOrientation_regular {n : P3 K} {d : K} {cell face : List (P3 K)} {o : Int}
    (h : faceOrientation cell face = .ok o) (hr : Regular n d cell face) :
    (o < 0 → Spec.Silo.dot (vecArea face) n < 0) ∧ (¬ o < 0 → 0 < Spec.Silo.dot (vecArea face) n) := by
  match face, h with
  | a :: b :: c :: l, h =>
    have hpos := outward_pos (by simp) hr
    have hcor := hr.corner a b c l rfl
    have hd : ∀ u v : P3 K, Spec.Silo.dot u v = dot u v := fun _ _ => rfl
    rw [vecArea3, hd, hd] at hcor
    rw [hd]
    have hu : dot n (sub b a) = 0 := by
      have h1 := hr.plane a (by simp)
      have h2 := hr.plane b (by simp)
      unfold Spec.Silo.dot at h1 h2
      unfold dot sub
      linear_combination h2 - h1
    have hv : dot n (sub c b) = 0 := by
      have h1 := hr.plane b (by simp)
      have h2 := hr.plane c (by simp)
      unfold Spec.Silo.dot at h1 h2
      unfold dot sub
      linear_combination h2 - h1
    have hpar := parallel (w := sub (Polyhedron.bary (a :: b :: c :: l)) (Polyhedron.bary cell)) hu hv
    have hnn : 0 < dot n n := by
      have h0 : 0 ≤ dot n n := by
        unfold dot
        nlinarith [mul_self_nonneg n.x, mul_self_nonneg n.y, mul_self_nonneg n.z]
      rcases lt_or_eq_of_le h0 with h | h
      · exact h
      · exfalso
        unfold dot at h
        have hx : n.x = 0 := by nlinarith [mul_self_nonneg n.x, mul_self_nonneg n.y, mul_self_nonneg n.z]
        have hy : n.y = 0 := by nlinarith [mul_self_nonneg n.x, mul_self_nonneg n.y, mul_self_nonneg n.z]
        have hz : n.z = 0 := by nlinarith [mul_self_nonneg n.x, mul_self_nonneg n.y, mul_self_nonneg n.z]
        unfold dot at hpos
        rw [hx, hy, hz] at hpos
        simp at hpos
    simp only [faceOrientation, Outcome.ok.injEq] at h
    subst h
    split
    · rename_i hneg
      refine ⟨fun _ => ?_, fun h => absurd h (by decide)⟩
      have h1 : dot (cross (sub b a) (sub c b)) n < 0 := by
        by_contra hc
        have := mul_nonneg (not_lt.1 hc) hpos.le
        rw [← hpar] at this
        exact absurd (mul_neg_of_neg_of_pos hneg hnn) (not_lt.2 this)
      by_contra hc
      exact absurd hcor (not_lt.2 (mul_nonpos_of_nonpos_of_nonneg h1.le (not_lt.1 hc)))
    · rename_i hneg
      refine ⟨fun h => absurd h (by decide), fun _ => ?_⟩
      have h1 : 0 ≤ dot (cross (sub b a) (sub c b)) n := by
        by_contra hc
        have := mul_neg_of_neg_of_pos (not_le.1 hc) hpos
        rw [← hpar] at this
        exact absurd (mul_nonneg (not_lt.1 hneg) hnn.le) (not_le.2 this)
      by_contra hc
      exact absurd hcor (not_lt.2 (mul_nonpos_of_nonneg_of_nonpos h1 (not_lt.1 hc)))

/-- What the entry of a face means. -/
def GoodEntry (m : Mesh3 K) (cell : List Nat) (f : Nat) (e : Int) : Prop :=
  ∃ ps, readFace m.faces e = some ps ∧ (ps = m.faces.getD f [] ∨ ps = (m.faces.getD f []).reverse) ∧
    ∀ n d, Regular n d (pointsOf m.pts cell) (pointsOf m.pts (m.faces.getD f [])) →
      0 < Spec.Silo.dot (vecArea (pointsOf m.pts ps)) n

theorem cellFaces_ok (m : Mesh3 K) (cell : List Nat) : ∀ fs : List Nat,
    (∀ f ∈ fs, f < m.faces.length ∧ 3 ≤ (m.faces.getD f []).length) →
    ∃ r, cellFaces m cell fs = .ok r ∧ List.Forall₂ (GoodEntry m cell) fs r := by
  intro fs
  induction fs with
  | nil => intro _; exact ⟨[], rfl, .nil⟩
  | cons f fs ih =>
    intro h
    obtain ⟨hf, h3⟩ := h f (by simp)
    obtain ⟨r, h1, h2⟩ := ih fun x hx => h x (List.mem_cons_of_mem _ hx)
    obtain ⟨o, ho, -⟩ := faceOrientation_ok (pointsOf m.pts cell) (face := pointsOf m.pts (m.faces.getD f []))
      (by simpa [pointsOf] using h3)
    refine ⟨_, by rw [cellFaces, ho, Outcome.bind_ok, h1, Outcome.bind_ok], .cons ?_ h2⟩
    have hget : m.faces[f]? = some (m.faces.getD f []) := by simp [hf]
    split
    · rename_i hneg
      refine ⟨(m.faces.getD f []).reverse, ?_, Or.inr rfl, fun n d hr => ?_⟩
      · rw [readFace, if_neg (by omega)]
        have : (-(-(f : Int) - 1) - 1).toNat = f := by omega
        rw [this, hget]
        rfl
      · have e : pointsOf m.pts (m.faces.getD f []).reverse = (pointsOf m.pts (m.faces.getD f [])).reverse := by
          simp [pointsOf]
        rw [e, vecArea_reverse]
        linarith [(faceOrientation_regular ho hr).1 hneg]
    · rename_i hneg
      refine ⟨m.faces.getD f [], ?_, Or.inl rfl, fun n d hr => (faceOrientation_regular ho hr).2 hneg⟩
      rw [readFace, if_pos (by omega), Int.toNat_natCast, hget]

theorem allFaces_ok (m : Mesh3 K) : ∀ cs : List (List Nat × List Nat),
    (∀ c ∈ cs, ∀ f ∈ c.2, f < m.faces.length ∧ 3 ≤ (m.faces.getD f []).length) →
    ∃ fl zs, allFaces m cs = .ok fl ∧ cutBlocks (cs.map fun c => c.2.length) fl = some zs ∧
      List.Forall₂ (fun c z => List.Forall₂ (GoodEntry m c.1) c.2 z) cs zs := by
  intro cs
  induction cs with
  | nil => intro _; exact ⟨[], [], rfl, rfl, .nil⟩
  | cons c cs ih =>
    intro h
    obtain ⟨r, h1, h2⟩ := cellFaces_ok m c.1 c.2 (h c (by simp))
    obtain ⟨fl, zs, h3, h4, h5⟩ := ih fun x hx => h x (List.mem_cons_of_mem _ hx)
    refine ⟨r ++ fl, r :: zs, by rw [allFaces, h1, Outcome.bind_ok, h3, Outcome.bind_ok], ?_, .cons h2 h5⟩
    have hl : c.2.length = r.length := h2.length_eq
    rw [List.map_cons, cutBlocks, if_neg (by rw [hl]; simp), hl, List.drop_left, h4, List.take_left]
    rfl

end ordered

theorem meshCalls_true {K : Type} [Field K] (db : Db K) (a b : Call K) :
    ((db.meshCalls a b).1 = true ↔ db.isOpen = true ∧ db.lib a = true ∧ db.lib b = true) ∧
    ((db.meshCalls a b).1 = true → (db.meshCalls a b).2 = [a, b]) := by
  unfold Db.meshCalls Db.put
  cases db.isOpen <;> cases db.lib a <;> cases db.lib b <;> simp

end Verif.Silo
