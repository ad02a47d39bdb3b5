import Verif.Model.PostMesh
import Verif.Lemmas.Polyhedron
/-! Lemmas on `Model/PostMesh`. -/
namespace Verif.PostMesh
open Verif Verif.Spec Verif.Lemmas.Polyhedron

variable {K : Type} [Field K]

/-- What a list of face nodes is. -/
def FaceRel (src out : List (P3 K)) (f g : List Nat) : Prop :=
  (f.length ≤ 3 ∧ g = f) ∨ (3 < f.length ∧ ∃ b, out[b]? = some (mean3 (coords src f)) ∧ g = f ++ [b])

theorem get_append {α : Type} {l : List α} (l' : List α) {i : Nat} {a : α} (h : l[i]? = some a) :
    (l ++ l')[i]? = some a := by
  rw [List.getElem?_append_left (List.getElem?_eq_some_iff.1 h).1, h]

theorem FaceRel.append {src out : List (P3 K)} (out' : List (P3 K)) {f g : List Nat} (h : FaceRel src out f g) :
    FaceRel src (out ++ out') f g := by
  rcases h with h | ⟨h, b, hb, hg⟩
  · exact .inl h
  · exact .inr ⟨h, b, get_append _ hb, hg⟩

/-- The points added for faces. -/
def faceBars (src : List (P3 K)) (fs : List (List Nat)) : List (P3 K) :=
  (fs.filter fun f => decide (3 < f.length)).map fun f => mean3 (coords src f)

theorem faceLoop_spec (src : List (P3 K)) (fs : List (List Nat)) (out : List (P3 K)) :
    (faceLoop src fs out).1 = out ++ faceBars src fs ∧
      List.Forall₂ (FaceRel src (out ++ faceBars src fs)) fs (faceLoop src fs out).2 := by
  induction fs generalizing out with
  | nil => simp [faceLoop, faceBars]
  | cons f fs ih =>
    by_cases h : 3 < f.length
    · have hb : faceBars src (f :: fs) = mean3 (coords src f) :: faceBars src fs := by
        unfold faceBars; rw [List.filter_cons_of_pos (by simpa using h), List.map_cons]
      obtain ⟨h1, h2⟩ := ih (out ++ [mean3 (coords src f)])
      rw [faceLoop, if_pos h, hb]
      dsimp only
      rw [bary_mean, show out ++ mean3 (coords src f) :: faceBars src fs = out ++ [mean3 (coords src f)] ++ faceBars src fs by simp]
      exact ⟨h1, .cons (.inr ⟨h, out.length, by simp, rfl⟩) h2⟩
    · have hb : faceBars src (f :: fs) = faceBars src fs := by
        unfold faceBars; rw [List.filter_cons_of_neg (by simpa using h)]
      obtain ⟨h1, h2⟩ := ih out
      rw [faceLoop, if_neg h, hb]
      exact ⟨h1, .cons (.inl ⟨by omega, rfl⟩) h2⟩

/-- What the tetrahedra and the nodes of a cell are. -/
def CellRel (src out : List (P3 K)) (fn : List (List Nat)) (c : List Nat × List Nat)
    (r : List (Nat × Nat × Nat × Nat) × List Nat) : Prop :=
  (∃ a b d e, c.1 = [a, b, d, e] ∧ r = ([(a, b, d, e)], [a, b, d, e])) ∨
  (c.1.length ≠ 4 ∧ ∃ b, out[b]? = some (mean3 (coords src c.1)) ∧
    r = ((cellFaces fn b c.2).2, c.1 ++ [b] ++ (cellFaces fn b c.2).1))

/-- The points added for cells. -/
def cellBars (src : List (P3 K)) (cs : List (List Nat × List Nat)) : List (P3 K) :=
  (cs.filter fun c => decide (c.1.length ≠ 4)).map fun c => mean3 (coords src c.1)

theorem cellLoop_four (src : List (P3 K)) (fn : List (List Nat)) (a b d e : Nat) (js : List Nat)
    (cs : List (List Nat × List Nat)) (out : List (P3 K)) : cellLoop src fn (([a, b, d, e], js) :: cs) out =
      ⟨(cellLoop src fn cs out).pts, (a, b, d, e) :: (cellLoop src fn cs out).vols,
        [a, b, d, e] :: (cellLoop src fn cs out).cellNodes⟩ := rfl

theorem cellLoop_other (src : List (P3 K)) (fn : List (List Nat)) (c : List Nat × List Nat) (h : c.1.length ≠ 4)
    (cs : List (List Nat × List Nat)) (out : List (P3 K)) : cellLoop src fn (c :: cs) out =
      ⟨(cellLoop src fn cs (out ++ [mean3 (coords src c.1)])).pts,
        (cellFaces fn out.length c.2).2 ++ (cellLoop src fn cs (out ++ [mean3 (coords src c.1)])).vols,
        (c.1 ++ [out.length] ++ (cellFaces fn out.length c.2).1) ::
          (cellLoop src fn cs (out ++ [mean3 (coords src c.1)])).cellNodes⟩ := by
  rw [cellLoop]
  split
  · next h' => rw [h'] at h; exact absurd rfl h
  · rfl

theorem cellLoop_spec (src : List (P3 K)) (fn : List (List Nat)) (cs : List (List Nat × List Nat)) (out : List (P3 K)) :
    (cellLoop src fn cs out).pts = out ++ cellBars src cs ∧
      ∃ bs : List (List (Nat × Nat × Nat × Nat) × List Nat), (cellLoop src fn cs out).vols = (bs.map Prod.fst).flatten ∧
        (cellLoop src fn cs out).cellNodes = bs.map Prod.snd ∧
        List.Forall₂ (CellRel src (out ++ cellBars src cs) fn) cs bs := by
  induction cs generalizing out with
  | nil => exact ⟨by simp [cellLoop, cellBars], [], rfl, rfl, .nil⟩
  | cons c cs ih =>
    by_cases h : c.1.length = 4
    · obtain ⟨ids, js⟩ := c
      match ids, h with
      | [a, b, d, e], _ =>
        obtain ⟨h1, bs, h2, h3, h4⟩ := ih out
        have hb : cellBars src (([a, b, d, e], js) :: cs) = cellBars src cs := by
          unfold cellBars; rw [List.filter_cons_of_neg (by simp)]
        rw [cellLoop_four, hb]
        exact ⟨h1, ([(a, b, d, e)], [a, b, d, e]) :: bs, by simp [h2], by simp [h3],
          .cons (.inl ⟨a, b, d, e, rfl, rfl⟩) h4⟩
    · obtain ⟨h1, bs, h2, h3, h4⟩ := ih (out ++ [mean3 (coords src c.1)])
      have hb : cellBars src (c :: cs) = mean3 (coords src c.1) :: cellBars src cs := by
        unfold cellBars; rw [List.filter_cons_of_pos (by simpa using h), List.map_cons]
      rw [cellLoop_other _ _ _ h, hb,
        show out ++ mean3 (coords src c.1) :: cellBars src cs = out ++ [mean3 (coords src c.1)] ++ cellBars src cs by simp]
      exact ⟨h1, ((cellFaces fn out.length c.2).2, c.1 ++ [out.length] ++ (cellFaces fn out.length c.2).1) :: bs,
        by simp [h2], by simp [h3], .cons (.inr ⟨h, out.length, by simp, rfl⟩) h4⟩

/-! ### The pieces of a face -/

/-- The point with a number. -/
def at3 (P : List (P3 K)) (i : Nat) : P3 K := P.getD i ⟨0, 0, 0⟩

theorem at3_some {P : List (P3 K)} {i : Nat} {p : P3 K} (h : P[i]? = some p) : at3 P i = p := by
  simp [at3, List.getD_eq_getElem?_getD, h]

theorem faceTris_three (a b c : Nat) : faceTris [a, b, c] = [(a, b, c)] := rfl

theorem faceTris_fan (f : List Nat) (h : 3 < f.length) (b : Nat) : faceTris (f ++ [b]) =
    (List.range f.length).map fun i => (f.getD i 0, f.getD ((i + 1) % f.length) 0, b) := by
  have h4 : faceTris (f ++ [b]) = (List.range ((f ++ [b]).length - 1)).map fun i =>
      ((f ++ [b]).getD i 0, (f ++ [b]).getD ((i + 1) % ((f ++ [b]).length - 1)) 0, (f ++ [b]).getLastD 0) := by
    rw [faceTris]
    intro x y z e
    have := congrArg List.length e
    simp at this; omega
  rw [h4, List.length_append, List.length_singleton, Nat.add_sub_cancel]
  refine List.map_congr_left fun i hi => ?_
  have hi := List.mem_range.1 hi
  have hm : (i + 1) % f.length < f.length := Nat.mod_lt _ (by omega)
  simp [List.getD_eq_getElem?_getD, List.getElem?_append_left, hi, hm]

/-- The fan of a face from a point. -/
theorem faceTris_sides (P src : List (P3 K)) (f : List Nat) (h : 3 < f.length) (b : Nat)
    (hf : ∀ i ∈ f, at3 P i = src.getD i ⟨0, 0, 0⟩) :
    (faceTris (f ++ [b])).map (fun t => (at3 P t.1, at3 P t.2.1, at3 P t.2.2)) =
      (sides3 (coords src f)).map fun e => (e.1, e.2, at3 P b) := by
  have h1 := fan_sides (at3 P b) (coords src f)
  rw [faceTris_fan f h, List.map_map]
  have h2 : (sides3 (coords src f)).map (fun e => (e.1, e.2, at3 P b)) =
      (Polyhedron.fan (at3 P b) (coords src f)).map fun t => (t.2.1, t.2.2, t.1) := by
    rw [h1, List.map_map]; rfl
  have key : ∀ i, i < f.length → at3 P (f.getD i 0) = (coords src f).getD i ⟨0, 0, 0⟩ := by
    intro i hi
    have hm : f[i] ∈ f := List.getElem_mem hi
    simp only [List.getD_eq_getElem?_getD, coords, List.getElem?_map, List.getElem?_eq_getElem hi, Option.map_some,
      Option.getD_some]
    rw [hf _ hm, List.getD_eq_getElem?_getD]
  rw [h2, Polyhedron.fan, List.map_map]
  have hl : (coords src f).length = f.length := List.length_map _
  rw [hl]
  refine List.map_congr_left fun i hi => ?_
  have hi := List.mem_range.1 hi
  have hm : (i + 1) % f.length < f.length := Nat.mod_lt _ (by omega)
  simp only [Function.comp, key i hi, key _ hm]

theorem cellFaces_tets (fn : List (List Nat)) (b : Nat) (js : List Nat) : (cellFaces fn b js).2 =
    js.flatMap fun j => (faceTris (fn.getD j [])).map fun t => (t.1, t.2.1, t.2.2, b) := by
  induction js with
  | nil => rfl
  | cons j js ih => rw [cellFaces, List.flatMap_cons, ← ih]

theorem cellFaces_nodes (fn : List (List Nat)) (b : Nat) (js : List Nat) (n : Nat) :
    n ∈ (cellFaces fn b js).1 ↔ ∃ j ∈ js, 1 < (faceTris (fn.getD j [])).length ∧
      n = ((faceTris (fn.getD j [])).getD 1 (0, 0, 0)).2.2 := by
  induction js with
  | nil => simp [cellFaces]
  | cons j js ih =>
    rw [cellFaces]
    simp only [List.mem_append, ih, List.mem_cons, exists_eq_or_imp]
    refine or_congr ?_ Iff.rfl
    split_ifs with h <;> simp only [h, true_and, false_and, List.mem_singleton, List.not_mem_nil]

theorem mem_fan {f : List Nat} (h : 3 < f.length) {b : Nat} {t : Nat × Nat × Nat} (ht : t ∈ faceTris (f ++ [b])) :
    t.1 ∈ f ∧ t.2.1 ∈ f ∧ t.2.2 = b := by
  rw [faceTris_fan f h] at ht
  obtain ⟨i, hi, rfl⟩ := List.mem_map.1 ht
  have hi := List.mem_range.1 hi
  have hm : (i + 1) % f.length < f.length := Nat.mod_lt _ (by omega)
  refine ⟨?_, ?_, rfl⟩
  · simp [List.getD_eq_getElem?_getD, List.getElem?_eq_getElem hi]
  · simp [List.getD_eq_getElem?_getD, List.getElem?_eq_getElem hm]

theorem fan_second {f : List Nat} (h : 3 < f.length) (b : Nat) : 1 < (faceTris (f ++ [b])).length ∧
    ((faceTris (f ++ [b])).getD 1 (0, 0, 0)).2.2 = b := by
  have h1 : 1 < (faceTris (f ++ [b])).length := by rw [faceTris_fan f h]; simp; omega
  refine ⟨h1, ?_⟩
  rw [List.getD_eq_getElem?_getD, List.getElem?_eq_getElem h1, Option.getD_some]
  exact (mem_fan h (List.getElem_mem h1)).2.2

/-! ### The whole mesh -/

/-- The faces with the points added for them. -/
theorem faceLoop_onto (src : List (P3 K)) (fs : List (List Nat)) (out : List (P3 K)) (i : Nat) (h1 : out.length ≤ i)
    (h2 : i < (faceLoop src fs out).1.length) :
    ∃ (j : Nat) (f : List Nat), fs[j]? = some f ∧ 3 < f.length ∧ (faceLoop src fs out).2[j]? = some (f ++ [i]) := by
  induction fs generalizing out with
  | nil => simp only [faceLoop] at h2; omega
  | cons f fs ih =>
    by_cases h : 3 < f.length
    · rw [faceLoop, if_pos h] at h2 ⊢
      dsimp only at h2 ⊢
      rcases Nat.eq_or_lt_of_le h1 with rfl | hlt
      · exact ⟨0, f, rfl, h, rfl⟩
      · obtain ⟨j, f', a, b, c⟩ := ih _ (by simp; omega) h2
        exact ⟨j + 1, f', a, b, c⟩
    · rw [faceLoop, if_neg h] at h2 ⊢
      obtain ⟨j, f', a, b, c⟩ := ih _ h1 h2
      exact ⟨j + 1, f', a, b, c⟩

/-- The cells have the points added for them. -/
theorem cellLoop_onto (src : List (P3 K)) (fn : List (List Nat)) (cs : List (List Nat × List Nat)) (out : List (P3 K))
    (i : Nat) (h1 : out.length ≤ i) (h2 : i < (cellLoop src fn cs out).pts.length) :
    ∃ l ∈ (cellLoop src fn cs out).cellNodes, i ∈ l := by
  induction cs generalizing out with
  | nil => simp only [cellLoop] at h2; omega
  | cons c cs ih =>
    by_cases h : c.1.length = 4
    · obtain ⟨ids, js⟩ := c
      match ids, h with
      | [a, b, d, e], _ =>
        rw [cellLoop_four] at h2 ⊢
        obtain ⟨l, hl, hi⟩ := ih out h1 h2
        exact ⟨l, List.mem_cons_of_mem _ hl, hi⟩
    · rw [cellLoop_other _ _ _ h] at h2 ⊢
      rcases Nat.eq_or_lt_of_le h1 with rfl | hlt
      · exact ⟨_, List.mem_cons_self, by simp⟩
      · obtain ⟨l, hl, hi⟩ := ih _ (by simp; omega) h2
        exact ⟨l, List.mem_cons_of_mem _ hl, hi⟩

theorem build3_spec (m : Mesh3 K) (hr : readable3 m = true) : ∃ P fn bs, build3 m = .ok P ∧
    P.pts = m.pts.take m.nNodes ++ faceBars m.pts m.faces ++ cellBars m.pts m.cells ∧
    P.vols = (List.map Prod.fst bs).flatten ∧ P.cellNodes = bs.map Prod.snd ∧
    List.Forall₂ (FaceRel m.pts P.pts) m.faces fn ∧ List.Forall₂ (CellRel m.pts P.pts fn) m.cells bs ∧
    (∀ i, m.nNodes ≤ i → i < P.pts.length → (∃ (j : Nat) (f : List Nat), m.faces[j]? = some f ∧ 3 < f.length ∧ fn[j]? = some (f ++ [i])) ∨
      ∃ l ∈ P.cellNodes, i ∈ l) := by
  obtain ⟨h1, h2⟩ := faceLoop_spec m.pts m.faces (m.pts.take m.nNodes)
  obtain ⟨h3, bs, h4, h5, h6⟩ := cellLoop_spec m.pts (faceLoop m.pts m.faces (m.pts.take m.nNodes)).2 m.cells
    (faceLoop m.pts m.faces (m.pts.take m.nNodes)).1
  have h3' := h3.trans (congrArg (· ++ cellBars m.pts m.cells) h1)
  refine ⟨_, (faceLoop m.pts m.faces (m.pts.take m.nNodes)).2, bs, by rw [build3, if_pos hr], h3', h4, h5, ?_, ?_, ?_⟩
  · rw [h3']
    exact h2.imp fun f g h => h.append _
  · rw [h3]; exact h6
  · intro i hi hl
    by_cases hf : i < (faceLoop m.pts m.faces (m.pts.take m.nNodes)).1.length
    · exact .inl (faceLoop_onto m.pts m.faces _ i (by simp; omega) hf)
    · exact .inr (cellLoop_onto m.pts _ m.cells _ i (by omega) hl)

/-- Nodes keep their places. -/
theorem at3_node {P src : List (P3 K)} {n : Nat} {l : List (P3 K)} (h : P = src.take n ++ l) (hn : n ≤ src.length) {i : Nat}
    (hi : i < n) : at3 P i = src.getD i ⟨0, 0, 0⟩ := by
  have : i < (src.take n).length := by simp; omega
  rw [at3, h, List.getD_eq_getElem?_getD, List.getD_eq_getElem?_getD, List.getElem?_append_left this,
    List.getElem?_take_of_lt hi]

/-! ### Volumes -/

section order
variable [LinearOrder K] [IsStrictOrderedRing K]

theorem vol6_turn (a b c z : P3 K) : |vol6 a b c z| = |vol6 z c a b| := by
  rw [← abs_neg (vol6 z c a b)]; congr 1; unfold vol6; ring

theorem vol6_turn' (a b c z : P3 K) : |vol6 z a b c| = |vol6 z c a b| := by
  congr 1; unfold vol6; ring

theorem face_mean {pts : List (P3 K)} {fs : List (List (P3 K) × Bool)} (hc : ConvexSurface pts fs) (hp : pts ≠ [])
    {f : List (P3 K) × Bool} (hf : f ∈ fs) (hn : f.1 ≠ []) (hpl : Planar f.1) :
    ((sides3 f.1).map fun e => |vol6 (mean3 pts) (mean3 f.1) e.1 e.2|).sum =
      ((outSides f).map fun e => vol6 (mean3 pts) (f.1.headD ⟨0, 0, 0⟩) e.1 e.2).sum := by
  have hh : f.1.headD ⟨0, 0, 0⟩ ∈ f.1 := by
    cases hl : f.1 with
    | nil => exact absurd hl hn
    | cons a l => simp
  rw [abs_outSides _ _ f fun e he => (fan_nonneg hc hp hf he).2 hn]
  obtain ⟨n, c, hn0, hpc⟩ := hpl
  have hl : (f.1.length : K) ≠ 0 := by
    have : 0 < f.1.length := List.length_pos_iff.2 hn
    exact_mod_cast this.ne'
  have hm : n.x * (mean3 f.1).x + n.y * (mean3 f.1).y + n.z * (mean3 f.1).z = c := by
    have := linear_mean f.1 hl n.x n.y n.z (-c)
    rw [List.map_congr_left (g := fun _ => (0 : K)) fun p hpm => by rw [hpc p hpm]; ring] at this
    simp only [List.map_const', List.sum_replicate, smul_zero, zero_div] at this
    linear_combination this
  rw [outSides_sum f _ (fun p q => vol6_swap _ _ p q), outSides_sum f _ (fun p q => vol6_swap _ _ p q),
    fan_planar f.1 n c hn0 hpc (mean3 pts) (mean3 f.1) _ hm (hpc _ hh)]

theorem face_tets {pts : List (P3 K)} {fs : List (List (P3 K) × Bool)} (hc : ConvexSurface pts fs) (hp : pts ≠ [])
    {src P : List (P3 K)} {f g : List Nat} (hr : FaceRel src P f g) (h3 : 3 ≤ f.length)
    (hf : ∀ i ∈ f, at3 P i = src.getD i ⟨0, 0, 0⟩) {o : Bool} (ho : (coords src f, o) ∈ fs)
    (hpl : 3 < f.length → Planar (coords src f)) :
    ((faceTris g).map fun t => |vol6 (at3 P t.1) (at3 P t.2.1) (at3 P t.2.2) (mean3 pts)|).sum =
      ((outSides (coords src f, o)).map fun e => vol6 (mean3 pts) ((coords src f).headD ⟨0, 0, 0⟩) e.1 e.2).sum := by
  rcases hr with ⟨hl, rfl⟩ | ⟨hl, b, hb, rfl⟩
  · match g, hl, h3 with
    | [a, b, c], _, _ =>
      have h := face_volume hc hp ho (by simp [coords]) (by intro h; simp [coords] at h)
      rw [← h]
      simp only [coords, List.map_cons, List.map_nil, Polyhedron.splitTriangles, faceTris_three, List.sum_cons,
        List.sum_nil, ← hf a (by simp), ← hf b (by simp), ← hf c (by simp)]
      rw [vol6_turn, ← vol6_turn' (at3 P a)]
  · have hn : coords src f ≠ [] := by
      intro h
      have := congrArg List.length h
      simp [coords] at this
      simp [this] at hl
    rw [← face_mean hc hp ho hn (hpl hl)]
    have h1 := congrArg (List.map fun t : P3 K × P3 K × P3 K => |vol6 t.1 t.2.1 t.2.2 (mean3 pts)|)
      (faceTris_sides P src f hl b hf)
    rw [List.map_map, List.map_map] at h1
    rw [show (List.map (fun t => |vol6 (at3 P t.1) (at3 P t.2.1) (at3 P t.2.2) (mean3 pts)|) (faceTris (f ++ [b]))) =
      _ from h1]
    congr 1
    refine List.map_congr_left fun e _ => ?_
    simp only [Function.comp, at3_some hb]
    exact vol6_turn _ _ _ _

/-- The tetrahedra of a cell fill it. -/
theorem cell_tets {src P : List (P3 K)} {faces fn : List (List Nat)} (hfn : List.Forall₂ (FaceRel src P) faces fn)
    (ids js : List Nat) (hi : ids ≠ []) (fs : List (List (P3 K) × Bool))
    (hfs : fs.map Prod.fst = js.map fun j => coords src (faces.getD j []))
    (hj : ∀ j ∈ js, j < faces.length ∧ 3 ≤ (faces.getD j []).length ∧
      (∀ i ∈ faces.getD j [], at3 P i = src.getD i ⟨0, 0, 0⟩) ∧
      (3 < (faces.getD j []).length → Planar (coords src (faces.getD j []))))
    (hc : ConvexSurface (coords src ids) fs) (b : Nat) (hb : P[b]? = some (mean3 (coords src ids))) :
    (((cellFaces fn b js).2.map fun t => |vol6 (at3 P t.1) (at3 P t.2.1) (at3 P t.2.2.1) (at3 P t.2.2.2)|).sum) / 6 =
      surfVol (mean3 (coords src ids)) fs := by
  have hp : coords src ids ≠ [] := by
    intro h; exact hi (by simpa [coords] using h)
  rw [surfVol, cellFaces_tets, List.map_flatMap]
  congr 1
  have : ∀ (gs : List (List (P3 K) × Bool)) (js' : List Nat), (∀ f ∈ gs, f ∈ fs) → (∀ j ∈ js', j ∈ js) →
      gs.map Prod.fst = js'.map (fun j => coords src (faces.getD j [])) →
      (js'.flatMap fun j => ((faceTris (fn.getD j [])).map fun t => (t.1, t.2.1, t.2.2, b)).map fun t =>
        |vol6 (at3 P t.1) (at3 P t.2.1) (at3 P t.2.2.1) (at3 P t.2.2.2)|).sum =
      (gs.map fun f => ((outSides f).map fun e =>
        vol6 (mean3 (coords src ids)) (f.1.headD ⟨0, 0, 0⟩) e.1 e.2).sum).sum := by
    intro gs
    induction gs with
    | nil =>
      intro js' _ _ h
      have : js' = [] := by simpa using h.symm
      rw [this]; rfl
    | cons f gs ih =>
      intro js' hg hjs h
      match js', h with
      | j :: js', h =>
        simp only [List.map_cons, List.cons.injEq] at h
        obtain ⟨hjl, h3, hat, hpl⟩ := hj j (hjs j List.mem_cons_self)
        have hjl' : j < fn.length := by rw [← hfn.length_eq]; exact hjl
        have hr : FaceRel src P (faces.getD j []) (fn.getD j []) := by
          have := (List.forall₂_iff_get.1 hfn).2 j hjl hjl'
          simpa [List.getD_eq_getElem?_getD, hjl, hjl'] using this
        have hf : (coords src (faces.getD j []), f.2) ∈ fs := by
          rw [← h.1]; exact hg f List.mem_cons_self
        have hv := face_tets hc hp hr h3 hat hf hpl
        rw [List.flatMap_cons, List.sum_append, List.map_cons, List.sum_cons,
          ih js' (fun g h => hg g (List.mem_cons_of_mem _ h)) (fun i h => hjs i (List.mem_cons_of_mem _ h)) h.2,
          List.map_map]
        congr 1
        rw [← h.1] at hv
        rw [← hv]
        congr 1
        refine List.map_congr_left fun t _ => ?_
        simp only [Function.comp, at3_some hb]
  exact this fs js (fun _ h => h) (fun _ h => h) hfs

end order

end Verif.PostMesh
