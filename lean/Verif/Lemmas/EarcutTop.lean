import Verif.Lemmas.EarcutConvex
/-!
Lemmas about `mapbox::earcut` of a single ring: the linked list, indices and points.
-/
namespace Verif.Earcut
open Verif.Spec

set_option linter.unusedSectionVars false

variable {K : Type} [Field K] [LinearOrder K] [IsStrictOrderedRing K]

/-- The nodes in the order of the points. -/
def nodesOf (pts : List (P2 K)) : List (Node K) := pts.zipIdx.map fun e => (⟨e.2, e.1⟩ : Node K)

theorem nodesOf_p (pts : List (P2 K)) : (nodesOf pts).map (·.p) = pts := by
  unfold nodesOf; rw [List.map_map]
  have : ((fun x : Node K => x.p) ∘ fun e : P2 K × Nat => (⟨e.2, e.1⟩ : Node K)) = Prod.fst := rfl
  rw [this, List.zipIdx_map_fst]

theorem nodesOf_mem {pts : List (P2 K)} {x : Node K} (h : x ∈ nodesOf pts) : pts[x.i]? = some x.p := by
  unfold nodesOf at h
  obtain ⟨e, he, rfl⟩ := List.mem_map.1 h
  exact List.mem_zipIdx_iff_getElem?.1 he

/-- The ring in the order of the linked list. -/
def orient (pts : List (P2 K)) : List (Node K) :=
  if 0 < windingSum pts then nodesOf pts else (nodesOf pts).reverse

theorem ringSum_tele {α : Type} (f : α → α → K) (g : α → K) (l : List α) :
    ringSum (fun a b => f a b + (g a - g b)) l = ringSum f l := by
  cases l with
  | nil => rfl
  | cons a l =>
    simp only [ringSum]
    suffices h : ∀ (l : List α) (a z : α), pathSum (fun a b => f a b + (g a - g b)) (a :: l ++ [z]) =
        pathSum f (a :: l ++ [z]) + (g a - g z) by rw [h]; ring
    intro l
    induction l with
    | nil => intro a z; simp [pathSum]
    | cons b l ih =>
      intro a z
      simp only [List.cons_append, pathSum] at ih ⊢
      rw [ih]; ring

theorem windingSum_eq (pts : List (P2 K)) : windingSum pts = shoelace pts := by
  unfold windingSum shoelace sides
  have h1 := ringSum_eq (fun a b : P2 K => (a.x - b.x) * (b.y + a.y)) pts
  have h2 := ringSum_eq (fun a b : P2 K => a.x * b.y - b.x * a.y) pts
  rw [← h1, ← h2, ← ringSum_tele (fun a b : P2 K => a.x * b.y - b.x * a.y) (fun a : P2 K => a.x * a.y)]
  congr 1
  funext a b
  ring

theorem ringInt_eq (μ : P2 K → P2 K → P2 K → K) (o : P2 K) (pts : List (P2 K)) :
    ringInt μ o pts = ringSum (μ o) pts := by
  rw [ringSum_eq]; rfl

theorem rs_nodesOf (μ : P2 K → P2 K → P2 K → K) (o : P2 K) (pts : List (P2 K)) :
    rs μ o (nodesOf pts) = ringInt μ o pts := by
  rw [ringInt_eq]
  conv_rhs => rw [← nodesOf_p pts, ringSum_map]
  rfl

theorem rs_orient {μ : P2 K → P2 K → P2 K → K} (hμ : SignedIntegral μ) (o : P2 K) (pts : List (P2 K)) :
    rs μ o (orient pts) = if 0 < shoelace pts then ringInt μ o pts else -ringInt μ o pts := by
  unfold orient
  rw [windingSum_eq]
  split
  · rw [rs_nodesOf]
  · unfold rs
    rw [ringSum_reverse _ (fun a b => mu_anti hμ o a.p b.p), ← rs_nodesOf]
    rfl

/-- What `linkedList` returns: the ring, less its last node when that repeats the first. -/
theorem linkedList_cases (pts : List (P2 K)) :
    (∃ j, linkedList pts = (orient pts).rotate j) ∨
    (∃ l z j, orient pts = l ++ [z] ∧ linkedList pts = l.rotate j ∧ (∀ h ∈ (l ++ [z]).head?, z.p = h.p)) := by
  have e : linkedList pts = match (orient pts).getLast?, (orient pts).head? with
      | some z, some h =>
        if equals z.p h.p then (orient pts).dropLast.rotate ((orient pts).dropLast.length - 1)
        else (orient pts).rotate ((orient pts).length - 2)
      | _, _ => [] := rfl
  rw [e]
  rcases List.eq_nil_or_concat (orient pts) with h | ⟨l, z, h⟩
  · rw [h]; exact Or.inl ⟨0, rfl⟩
  · rw [List.concat_eq_append] at h
    rw [h, List.getLast?_append]
    cases hh : (l ++ [z]).head? with
    | none => simp at hh
    | some w =>
      simp only [List.getLast?_singleton, Option.some_or]
      split
      · rename_i he
        rw [equals_iff] at he
        exact Or.inr ⟨l, z, _, rfl, by rw [List.dropLast_concat], fun w' hw => by
          have hw' : some w = some w' := by rw [← hh]; exact hw
          rw [← Option.some.inj hw']; exact he⟩
      · exact Or.inl ⟨_, rfl⟩

theorem linkedList_mem {pts : List (P2 K)} {x : Node K} (h : x ∈ linkedList pts) : x ∈ nodesOf pts := by
  have ho : ∀ x, x ∈ orient pts → x ∈ nodesOf pts := fun x hx => by
    unfold orient at hx
    split at hx
    · exact hx
    · exact List.mem_reverse.1 hx
  rcases linkedList_cases pts with ⟨j, e⟩ | ⟨l, z, j, e1, e2, _⟩
  · rw [e] at h; exact ho x (List.mem_rotate.1 h)
  · rw [e2] at h
    refine ho x ?_
    rw [e1]
    exact List.mem_append_left _ (List.mem_rotate.1 h)

theorem rs_linkedList {μ : P2 K → P2 K → P2 K → K} (hμ : SignedIntegral μ) (o : P2 K) (pts : List (P2 K)) :
    rs μ o (linkedList pts) = if 0 < shoelace pts then ringInt μ o pts else -ringInt μ o pts := by
  rw [← rs_orient hμ]
  rcases linkedList_cases pts with ⟨j, e⟩ | ⟨l, z, j, e1, e2, e3⟩
  · rw [e]; exact ringSum_rotate _ _ _
  · rw [e1, e2]
    unfold rs
    rw [ringSum_rotate, ringSum_rot1]
    cases l with
    | nil =>
      have := hμ.flat o z.p z.p (by unfold turn; ring)
      simp [ringSum, pathSum, this]
    | cons h l =>
      have hz : z.p = h.p := e3 h (by simp)
      have hlast : pathSum (fun a b : Node K => μ o a.p b.p) (h :: l ++ [z]) =
          pathSum (fun a b : Node K => μ o a.p b.p) (h :: l ++ [h]) := by
        clear e1 e2 e3
        have : ∀ (l : List (Node K)) (a : Node K), pathSum (fun a b : Node K => μ o a.p b.p) (a :: l ++ [z]) =
            pathSum (fun a b : Node K => μ o a.p b.p) (a :: l ++ [h]) := by
          intro l
          induction l with
          | nil => intro a; simp [pathSum, hz]
          | cons b l ih => intro a; have := ih b; simp only [List.cons_append, pathSum] at this ⊢; rw [this]
        exact this l h
      simp only [ringSum]
      have e : pathSum (fun a b : Node K => μ o a.p b.p) (z :: h :: l ++ [z]) =
          μ o z.p h.p + pathSum (fun a b : Node K => μ o a.p b.p) (h :: l ++ [z]) := by
        simp only [List.cons_append, pathSum]
      have h0 := hμ.flat o z.p h.p (by rw [hz]; unfold turn; ring)
      simp only [List.cons_append] at e hlast ⊢
      rw [e, h0, hlast]; ring

/-- `split_in_raw_triangles` gives the points of the nodes. -/
theorem splitTriangles_eq {pts : List (P2 K)} {R : Result K} (h : earcut pts = some R) :
    (∀ t ∈ R.tris, t.1 ∈ nodesOf pts ∧ t.2.1 ∈ nodesOf pts ∧ t.2.2 ∈ nodesOf pts) ∧
    splitTriangles pts = some (R.tris.map triP) := by
  have hw : ∀ t ∈ R.tris, t.1 ∈ nodesOf pts ∧ t.2.1 ∈ nodesOf pts ∧ t.2.2 ∈ nodesOf pts := by
    unfold earcut at h
    split at h
    · simp at h
    · dsimp only at h
      split at h
      · cases h; simp
      · cases h
        intro t ht
        obtain ⟨h1, h2, h3⟩ := (linked_spec _ _).1.tri t ht
        exact ⟨linkedList_mem h1, linkedList_mem h2, linkedList_mem h3⟩
  refine ⟨hw, ?_⟩
  unfold splitTriangles triangulate
  rw [h, Option.map_some, Option.map_some, List.map_map]
  congr 1
  refine List.map_congr_left fun t ht => ?_
  obtain ⟨h1, h2, h3⟩ := hw t ht
  simp only [Function.comp_apply, triP, List.getD_eq_getElem?_getD, nodesOf_mem h1, nodesOf_mem h2, nodesOf_mem h3,
    Option.getD_some]

theorem earcut_splits {pts : List (P2 K)} {R : Result K} (h : earcut pts = some R) (hc : R.clean = true) :
    Splits R.tris (linkedList pts) [] := by
  unfold earcut at h
  split at h
  · simp at h
  · dsimp only at h
    split at h
    · rename_i hl
      cases h
      exact ⟨fun μ o hm => by rw [rs_small hm o _ hl, rs_small hm o [] (by simp)]; simp [ts], by simp⟩
    · cases h; exact (linked_spec _ _).2 hc

theorem map_sublist3 {l : List (Node K)} {a b c : Node K} (h : List.Sublist [a, b, c] l) :
    List.Sublist [a.p, b.p, c.p] (l.map (·.p)) := h.map _

theorem flat_shoelace {pts : List (P2 K)} (h : Flat (nodesOf pts)) : shoelace pts = 0 := by
  have hμ : SignedIntegral (turn : P2 K → P2 K → P2 K → K) :=
    ⟨fun a b c => by unfold turn; ring, fun a b c d => by unfold turn; ring, fun _ _ _ h => h⟩
  have h0 : shoelace pts = ringInt turn ⟨0, 0⟩ pts := by
    unfold shoelace ringInt
    congr 1
    refine List.map_congr_left fun e _ => ?_
    unfold turn; ring
  rw [h0, ← rs_nodesOf]
  suffices key : ∀ (n : Nat) (r : List (Node K)), r.length ≤ n → Flat r → rs turn ⟨0, 0⟩ r = 0 from key _ _ le_rfl h
  intro n
  induction n with
  | zero =>
    intro r hr _
    exact rs_small hμ _ r (by omega)
  | succ n ih =>
    intro r hr hf
    match r with
    | [] => exact rs_small hμ _ _ (by simp)
    | [_] => exact rs_small hμ _ _ (by simp)
    | [_, _] => exact rs_small hμ _ _ (by simp)
    | a :: b :: c :: rest =>
      rw [rs_cut hμ, hf a b c (by simp), ih, zero_add]
      · simp at hr ⊢; omega
      · have : Flat (a :: c :: rest) := fun u v w hs => hf u v w (hs.trans (List.Sublist.cons_cons a (List.sublist_cons_self b _)))
        exact this.rot1

theorem shoelace_reverse (pts : List (P2 K)) : shoelace pts.reverse = -shoelace pts := by
  unfold shoelace sides
  have h1 := ringSum_eq (fun a b : P2 K => a.x * b.y - b.x * a.y) pts
  have h2 := ringSum_eq (fun a b : P2 K => a.x * b.y - b.x * a.y) pts.reverse
  rw [← h1, ← h2]
  exact ringSum_reverse _ (fun a b => by ring) _

/-- The ring of a convex polygon listed either way round. -/
theorem orient_good {pts q : List (P2 K)} (hq : q = pts ∨ q = pts.reverse) (hl : TurnsLeft q) (hn : q.Nodup)
    (hs : 0 < shoelace q) : (orient pts).map (·.p) = q ∧ Good (orient pts) ∧ ¬ Flat (orient pts) := by
  have hm : (orient pts).map (·.p) = q := by
    unfold orient
    rw [windingSum_eq]
    rcases hq with rfl | rfl
    · rw [if_pos hs, nodesOf_p]
    · rw [shoelace_reverse] at hs
      rw [if_neg (by linarith), List.map_reverse, nodesOf_p]
  refine ⟨hm, ⟨fun a b c h => hl _ _ _ (hm ▸ map_sublist3 h), ?_⟩, fun hf => ?_⟩
  · rw [← hm] at hn
    exact List.pairwise_map.1 hn
  · have : shoelace q = 0 := by
      refine flat_shoelace fun a b c h => ?_
      have h1 := map_sublist3 h
      rw [nodesOf_p, ← hm] at h1
      obtain ⟨l, h2, h3⟩ := List.sublist_map_iff.1 h1
      have hl3 : l.length = 3 := by simpa using (congrArg List.length h3).symm
      obtain ⟨u, v, w, rfl⟩ := List.length_eq_three.1 hl3
      simp only [List.map_cons, List.map_nil, List.cons.injEq, and_true] at h3
      rw [h3.1, h3.2.1, h3.2.2]
      exact hf u v w h2
    linarith

theorem orient_ends {pts q : List (P2 K)} (hm : (orient pts).map (·.p) = q) (hn : q.Nodup) (hl : 2 ≤ q.length) :
    ∃ j, linkedList pts = (orient pts).rotate j := by
  rcases linkedList_cases pts with h | ⟨l, z, j, e1, _, e3⟩
  · exact h
  · exfalso
    rw [e1] at hm
    cases l with
    | nil => rw [← hm] at hl; simp at hl
    | cons h l =>
      have := e3 h (by simp)
      rw [← hm] at hn
      simp [this] at hn

theorem length3 {q : List (P2 K)} (hs : shoelace q ≠ 0) : 3 ≤ q.length := by
  by_contra hc
  apply hs
  have hc : q.length < 3 := by omega
  match q, hc with
  | [], _ => rfl
  | [a], _ => simp [shoelace, sides]
  | [a, b], _ => simp [shoelace, sides, List.rotate_cons_succ]

theorem earcut_convex {pts q : List (P2 K)} (h80 : pts.length ≤ 80) (hq : q = pts ∨ q = pts.reverse)
    (hl : TurnsLeft q) (hn : q.Nodup) (hs : 0 < shoelace q) :
    ∃ R, earcut pts = some R ∧ R.clean = true ∧ R.tris.length + 2 = pts.length ∧ Tiles (R.tris.map triP) q := by
  obtain ⟨hm, hG, hF⟩ := orient_good hq hl hn hs
  have h3 := length3 hs.ne'
  obtain ⟨j, hj⟩ := orient_ends hm hn (by omega)
  have hlen : (orient pts).length = q.length := by rw [← hm, List.length_map]
  have hqp : q.length = pts.length := by rcases hq with rfl | rfl <;> simp
  have hll : (linkedList pts).length = pts.length := by rw [hj, List.length_rotate, hlen, hqp]
  have hG' : Good (linkedList pts) := by rw [hj]; exact hG.rotate j
  have hF' : ¬ Flat (linkedList pts) := fun h => hF (by rw [hj] at h; exact h.of_rotate)
  obtain ⟨n, hn'⟩ : ∃ n, (linkedList pts).length = n + 1 := ⟨(linkedList pts).length - 1, by omega⟩
  have hk := linked_good n (linkedList pts) (by omega) hG' hF'
  obtain ⟨_, k2, k3⟩ := slice_good _ (linkedList pts) le_rfl (by omega) hG' hF'
  refine ⟨⟨(slice (linkedList pts).length (linkedList pts)).1, true⟩, ?_, rfl, by rw [← hll]; exact k2, ?_⟩
  · unfold earcut
    rw [if_neg (by omega)]
    dsimp only
    rw [if_neg (by omega)]
    rw [hn', hk, ← hn']
  · intro x hx
    have hmem : ∀ a, a ∈ linkedList pts → a.p ∈ q := fun a ha => by
      rw [hj] at ha
      rw [← hm]; exact List.mem_map_of_mem (List.mem_rotate.1 ha)
    have hoff : Off (linkedList pts) x := fun a ha b hb hab => hx _ (hmem a ha) _ (hmem b hb) hab
    have hin : ringAll (fun u v : Node K => 0 < turn u.p v.p x) (linkedList pts) ↔ InConvex q x := by
      rw [hj, ringAll_rotate, ringAll_iff, InConvex, sides, ← hm, ← List.map_rotate, List.zip_map]
      simp only [List.forall_mem_map]
      rfl
    constructor
    · intro hi
      have := k3 x hoff (hin.2 hi)
      rw [List.filter_map, List.length_map]
      exact this
    · intro hi t ht hti
      obtain ⟨t', ht', rfl⟩ := List.mem_map.1 ht
      obtain ⟨m1, m2, m3⟩ := (slice_spec _ _).1.tri t' ht'
      exact hi (hin.1 (outside_none hG' (by omega) hoff m1 m2 m3 hti))

end Verif.Earcut
