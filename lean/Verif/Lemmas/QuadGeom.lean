import Verif.Lemmas.QuadRefine
import Mathlib.Tactic.Linarith
/-! Helper lemmas for the geometry of refined Cartesian meshes. -/
namespace Verif.QuadRefine
open Verif.Spec.QuadMesh
open TriRefine (Edge Bd midpoint mp)

section
variable {K : Type} [Field K]

theorem square_unique {pts : List (K × K)} {t : Quad} {p u p' u' : K × K} (h : IsSquare pts t p u)
    (h' : IsSquare pts t p' u') : p = p' ∧ u = u' := by
  have h1 := Option.some.inj (h.1.symm.trans h'.1)
  have h2 := Option.some.inj (h.2.1.symm.trans h'.2.1)
  simp only [at_, Prod.mk.injEq, zero_mul, add_zero, sub_zero, one_mul] at h1 h2
  have hp : p = p' := Prod.ext h1.1 h1.2
  subst hp
  exact ⟨rfl, Prod.ext (add_left_cancel h2.1) (add_left_cancel h2.2)⟩

variable [LinearOrder K] [IsStrictOrderedRing K]

theorem axis_sq {u : K × K} {h : K} (hu : Axis u h) : u.1 * u.1 + u.2 * u.2 = h * h := by
  rcases hu with rfl | rfl | rfl | rfl <;> simp

theorem axis_kid {u : K × K} {h : K} (hu : Axis u h) (i : Nat) : Axis (kidSide u i) (h / 2) := by
  rcases hu with rfl | rfl | rfl | rfl <;> unfold kidSide Axis <;> split <;> simp [neg_div]

/-- Coordinates in a square are unique. -/
theorem at_inj {p u : K × K} {h : K} (hu : Axis u h) (hh : 0 < h) {s r s' r' : K} (e : at_ p u s r = at_ p u s' r') :
    s = s' ∧ r = r' := by
  simp only [at_, Prod.mk.injEq] at e
  obtain ⟨e1, e2⟩ := e
  have hne : h ≠ 0 := hh.ne'
  rcases hu with rfl | rfl | rfl | rfl <;>
    simp only [mul_zero, mul_neg, neg_neg, sub_zero, add_zero, sub_neg_eq_add, add_left_inj, sub_left_inj,
      add_right_inj, sub_right_inj, mul_eq_mul_right_iff, hne, or_false, neg_inj, neg_zero] at e1 e2 <;>
    exact ⟨by assumption, by assumption⟩

/-- Coordinates of a point of a child in the parent. -/
def up (i : Nat) (s r : K) : K × K :=
  match i with
  | 0 => (s / 2, r / 2)
  | 1 => (1 - r / 2, s / 2)
  | 2 => (r / 2, 1 - s / 2)
  | _ => (1 - s / 2, 1 - r / 2)

theorem at_kid (p u : K × K) (i : Nat) (s r : K) :
    at_ (kidCorner p u i) (kidSide u i) s r = at_ p u (up i s r).1 (up i s r).2 := by
  unfold kidCorner kidSide up
  split <;> simp only [at_, Prod.mk.injEq] <;> constructor <;> ring

theorem inside_up {p u x : K × K} {i : Nat} (h : Inside (kidCorner p u i) (kidSide u i) x) : Inside p u x := by
  obtain ⟨s, r, h1, h2, h3, h4, rfl⟩ := h
  refine ⟨(up i s r).1, (up i s r).2, ?_, ?_, ?_, ?_, at_kid ..⟩ <;> unfold up <;> split <;> dsimp only <;> linarith

theorem inner_up {p u x : K × K} {i : Nat} (h : Inner (kidCorner p u i) (kidSide u i) x) : Inner p u x := by
  obtain ⟨s, r, h1, h2, h3, h4, rfl⟩ := h
  refine ⟨(up i s r).1, (up i s r).2, ?_, ?_, ?_, ?_, at_kid ..⟩ <;> unfold up <;> split <;> dsimp only <;> linarith

theorem inside_down {p u x : K × K} (h : Inside p u x) :
    ∃ i < 4, Inside (kidCorner p u i) (kidSide u i) x := by
  obtain ⟨s, r, h1, h2, h3, h4, rfl⟩ := h
  rcases le_total s (1 / 2) with hs | hs <;> rcases le_total r (1 / 2) with hr | hr
  · refine ⟨0, by omega, 2 * s, 2 * r, by linarith, by linarith, by linarith, by linarith, ?_⟩
    rw [at_kid]; congr 1 <;> simp [up]
  · refine ⟨2, by omega, 2 - 2 * r, 2 * s, by linarith, by linarith, by linarith, by linarith, ?_⟩
    rw [at_kid]; congr 1 <;> simp only [up] <;> ring
  · refine ⟨1, by omega, 2 * r, 2 - 2 * s, by linarith, by linarith, by linarith, by linarith, ?_⟩
    rw [at_kid]; congr 1 <;> simp only [up] <;> ring
  · refine ⟨3, by omega, 2 - 2 * s, 2 - 2 * r, by linarith, by linarith, by linarith, by linarith, ?_⟩
    rw [at_kid]; congr 1 <;> simp only [up] <;> ring

theorem inner_disjoint {p u x : K × K} {h : K} (hu : Axis u h) (hh : 0 < h) {i j : Nat} (hi : i < 4) (hj : j < 4)
    (h1 : Inner (kidCorner p u i) (kidSide u i) x) (h2 : Inner (kidCorner p u j) (kidSide u j) x) : i = j := by
  obtain ⟨s, r, a1, a2, a3, a4, rfl⟩ := h1
  obtain ⟨s', r', b1, b2, b3, b4, e⟩ := h2
  rw [at_kid, at_kid] at e
  obtain ⟨e1, e2⟩ := at_inj hu hh e
  have ci : i = 0 ∨ i = 1 ∨ i = 2 ∨ i = 3 := by omega
  have cj : j = 0 ∨ j = 1 ∨ j = 2 ∨ j = 3 := by omega
  rcases ci with rfl | rfl | rfl | rfl <;> rcases cj with rfl | rfl | rfl | rfl <;>
    first
      | rfl
      | (exfalso; simp only [up] at e1 e2; linarith)

/-- What refinement preserves. -/
structure Geo (m : Mesh K) (h : K) : Prop where
  pos : 0 < h
  conf : Conforming m
  square : ∀ t ∈ m.quads, ∃ p u, IsSquare m.points t p u ∧ Axis u h
  within : ∀ x ∈ m.points, 0 ≤ x.1 ∧ x.1 ≤ 1 ∧ 0 ≤ x.2 ∧ x.2 ≤ 1
  part : Partition m
  bnd : ∀ x ∈ m.edges, ∀ p q, m.points[x.1.a]? = some p → m.points[x.1.b]? = some q → ∀ i,
    (OnSide i p ∧ OnSide i q) ↔ (x.2.bnd = true ∧ x.2.id = i)

theorem zip_inj {m : Mesh K} (h : Conforming m) {x y : Quad × Nat} (hx : x ∈ m.quads.zipIdx)
    (hy : y ∈ m.quads.zipIdx) (e : x.1 = y.1) : x = y := by
  have h1 := (zip_ok h hx).2.2
  have h2 := (zip_ok h hy).2.2
  obtain ⟨l1, h1⟩ := List.getElem?_eq_some_iff.1 h1
  obtain ⟨l2, h2⟩ := List.getElem?_eq_some_iff.1 h2
  have hnd : m.quads.Nodup := h.quad_sorted.imp fun {a b} h (e : a = b) => Quad.irrefl a (by rw [← e] at h; exact h)
  exact Prod.ext e ((List.Nodup.getElem_inj_iff hnd (hi := l1) (hj := l2)).1 (h1.trans (e.trans h2.symm)))

theorem kid_get {E : List Edge} {N : Nat} {x : Quad × Nat} {k : Quad} (hk : k ∈ kids E N x) :
    ∃ i < 4, (kids E N x)[i]? = some k := by
  obtain ⟨i, hi⟩ := List.getElem?_of_mem hk
  exact ⟨i, (List.getElem?_eq_some_iff.1 hi).1, hi⟩

/-- A cell of the refined mesh with its parent. -/
theorem fine_cell {m : Mesh K} {h : K} (g : Geo m h) {k : Quad} (hk : k ∈ (fine m).quads) :
    ∃ x ∈ m.quads.zipIdx, ∃ p u, IsSquare m.points x.1 p u ∧ Axis u h ∧ ∃ i < 4,
      (kids (keys m) m.points.length x)[i]? = some k ∧
      IsSquare (fine m).points k (kidCorner p u i) (kidSide u i) := by
  obtain ⟨x, hx, hk⟩ := (mem_fine_quads m k).1 hk
  obtain ⟨p, u, h1, h2⟩ := g.square x.1 (List.fst_mem_of_mem_zipIdx hx)
  obtain ⟨i, hi, hki⟩ := kid_get hk
  exact ⟨x, hx, p, u, h1, h2, i, hi, hki, (kid_square g.conf hx h1 i k hki).2⟩

theorem fine_partition {m : Mesh K} {h : K} (g : Geo m h) : Partition (fine m) := by
  constructor
  · intro k hk p' u' hsq y hy
    obtain ⟨x, hx, p, u, h1, h2, i, hi, hki, h3⟩ := fine_cell g hk
    obtain ⟨rfl, rfl⟩ := square_unique hsq h3
    exact g.part.within x.1 (List.fst_mem_of_mem_zipIdx hx) p u h1 y (inside_up hy)
  · intro y a b c d
    obtain ⟨t, ht, p, u, hsq, hin⟩ := g.part.covers y a b c d
    obtain ⟨i, hi, hk⟩ := inside_down hin
    obtain ⟨j, hj⟩ := List.getElem?_of_mem ht
    have hx : (t, j) ∈ m.quads.zipIdx := List.mem_zipIdx_iff_getElem?.2 hj
    have hl : i < (kids (keys m) m.points.length (t, j)).length := hi
    have hki := List.getElem?_eq_getElem hl
    refine ⟨_, (mem_fine_quads m _).2 ⟨(t, j), hx, List.getElem_mem hl⟩, kidCorner p u i, kidSide u i, ?_, hk⟩
    exact (kid_square g.conf hx hsq i _ hki).2
  · intro k hk k' hk' q v q' v' hs hs' y hy hy'
    obtain ⟨x, hx, p, u, h1, h2, i, hi, hki, h3⟩ := fine_cell g hk
    obtain ⟨x', hx', p', u', h1', h2', i', hi', hki', h3'⟩ := fine_cell g hk'
    obtain ⟨rfl, rfl⟩ := square_unique hs h3
    obtain ⟨rfl, rfl⟩ := square_unique hs' h3'
    have e := g.part.disjoint x.1 (List.fst_mem_of_mem_zipIdx hx) x'.1 (List.fst_mem_of_mem_zipIdx hx') p u p' u' h1 h1'
      y (inner_up hy) (inner_up hy')
    have e := zip_inj g.conf hx hx' e
    subst e
    obtain ⟨rfl, rfl⟩ := square_unique h1 h1'
    have := inner_disjoint h2 g.pos hi hi' hy hy'
    subst this
    exact Option.some.inj (hki.symm.trans hki')

theorem getElem?_some_of_lt {α : Type} {l : List α} {i : Nat} (h : i < l.length) : ∃ x, l[i]? = some x ∧ x ∈ l :=
  ⟨l[i], List.getElem?_eq_getElem h, List.getElem_mem h⟩

theorem onSide_mid {i : Nat} {p q : K × K} (hp : 0 ≤ p.1 ∧ p.1 ≤ 1 ∧ 0 ≤ p.2 ∧ p.2 ≤ 1)
    (hq : 0 ≤ q.1 ∧ q.1 ≤ 1 ∧ 0 ≤ q.2 ∧ q.2 ≤ 1) : OnSide i (midpoint p q) ↔ OnSide i p ∧ OnSide i q := by
  obtain ⟨p1, p2, p3, p4⟩ := hp
  obtain ⟨q1, q2, q3, q4⟩ := hq
  unfold OnSide midpoint
  dsimp only
  constructor
  · rintro (⟨hi, e⟩ | ⟨hi, e⟩ | ⟨hi, e⟩ | ⟨hi, e⟩)
    · exact ⟨.inl ⟨hi, by linarith⟩, .inl ⟨hi, by linarith⟩⟩
    · exact ⟨.inr (.inl ⟨hi, by linarith⟩), .inr (.inl ⟨hi, by linarith⟩)⟩
    · exact ⟨.inr (.inr (.inl ⟨hi, by linarith⟩)), .inr (.inr (.inl ⟨hi, by linarith⟩))⟩
    · exact ⟨.inr (.inr (.inr ⟨hi, by linarith⟩)), .inr (.inr (.inr ⟨hi, by linarith⟩))⟩
  · rintro ⟨h1, h2⟩
    rcases h1 with ⟨hi, e⟩ | ⟨hi, e⟩ | ⟨hi, e⟩ | ⟨hi, e⟩ <;> subst hi <;> simp at h2
    · exact .inl ⟨rfl, by rw [e, h2]; norm_num⟩
    · exact .inr (.inl ⟨rfl, by rw [e, h2]; norm_num⟩)
    · exact .inr (.inr (.inl ⟨rfl, by rw [e, h2]; norm_num⟩))
    · exact .inr (.inr (.inr ⟨rfl, by rw [e, h2]; norm_num⟩))

theorem mid_within {p q : K × K} (hp : 0 ≤ p.1 ∧ p.1 ≤ 1 ∧ 0 ≤ p.2 ∧ p.2 ≤ 1)
    (hq : 0 ≤ q.1 ∧ q.1 ≤ 1 ∧ 0 ≤ q.2 ∧ q.2 ≤ 1) :
    0 ≤ (midpoint p q).1 ∧ (midpoint p q).1 ≤ 1 ∧ 0 ≤ (midpoint p q).2 ∧ (midpoint p q).2 ≤ 1 := by
  unfold midpoint
  dsimp only
  refine ⟨?_, ?_, ?_, ?_⟩ <;> linarith [hp.1, hp.2.1, hp.2.2.1, hp.2.2.2, hq.1, hq.2.1, hq.2.2.1, hq.2.2.2]

/-- The centre of a square within the unit square is strictly inside. -/
theorem centre_inside {p u : K × K} {h : K} (hu : Axis u h) (hh : 0 < h)
    (hw : ∀ s r : K, (s = 0 ∨ s = 1) → (r = 0 ∨ r = 1) →
      0 ≤ (at_ p u s r).1 ∧ (at_ p u s r).1 ≤ 1 ∧ 0 ≤ (at_ p u s r).2 ∧ (at_ p u s r).2 ≤ 1) :
    let c := centre (at_ p u 0 0) (at_ p u 1 0) (at_ p u 0 1) (at_ p u 1 1)
    0 < c.1 ∧ c.1 < 1 ∧ 0 < c.2 ∧ c.2 < 1 := by
  have h1 := hw 0 0 (.inl rfl) (.inl rfl)
  have h2 := hw 1 1 (.inr rfl) (.inr rfl)
  dsimp only [at_, centre] at *
  rcases hu with rfl | rfl | rfl | rfl <;> dsimp only at * <;>
    refine ⟨?_, ?_, ?_, ?_⟩ <;> linarith [h1.1, h1.2.1, h1.2.2.1, h1.2.2.2, h2.1, h2.2.1, h2.2.2.1, h2.2.2.2]

theorem cell_points {m : Mesh K} {h : K} (g : Geo m h) {t : Quad} {p u : K × K} (hsq : IsSquare m.points t p u)
    (s r : K) (hs : s = 0 ∨ s = 1) (hr : r = 0 ∨ r = 1) :
    0 ≤ (at_ p u s r).1 ∧ (at_ p u s r).1 ≤ 1 ∧ 0 ≤ (at_ p u s r).2 ∧ (at_ p u s r).2 ≤ 1 := by
  obtain ⟨a, b, c, d⟩ := hsq
  rcases hs with rfl | rfl <;> rcases hr with rfl | rfl
  · exact g.within _ (List.mem_of_getElem? a)
  · exact g.within _ (List.mem_of_getElem? c)
  · exact g.within _ (List.mem_of_getElem? b)
  · exact g.within _ (List.mem_of_getElem? d)

theorem fine_within {m : Mesh K} {h : K} (g : Geo m h) :
    ∀ x ∈ (fine m).points, 0 ≤ x.1 ∧ x.1 ≤ 1 ∧ 0 ≤ x.2 ∧ x.2 ≤ 1 := by
  intro x hx
  simp only [fine, List.mem_append] at hx
  have hget : ∀ i < m.points.length, 0 ≤ (m.points.getD i 0).1 ∧ (m.points.getD i 0).1 ≤ 1 ∧
      0 ≤ (m.points.getD i 0).2 ∧ (m.points.getD i 0).2 ≤ 1 := by
    intro i hi
    obtain ⟨y, hy, hm⟩ := getElem?_some_of_lt hi
    rw [List.getD_eq_getElem?_getD, hy]
    exact g.within y hm
  rcases hx with (hx | hx) | hx
  · exact g.within x hx
  · obtain ⟨e, he, rfl⟩ := List.mem_map.1 hx
    have := g.conf.edge_lt e he
    exact mid_within (hget _ (by omega)) (hget _ (by omega))
  · obtain ⟨t, ht, rfl⟩ := List.mem_map.1 hx
    obtain ⟨p, u, hsq, hu⟩ := g.square t ht
    have hc := centre_inside hu g.pos (cell_points g hsq)
    have e : ∀ {i : Nat} {y : K × K}, m.points[i]? = some y → m.points.getD i 0 = y := by
      intro i y hy
      rw [List.getD_eq_getElem?_getD, hy]
      rfl
    rw [e hsq.1, e hsq.2.1, e hsq.2.2.1, e hsq.2.2.2]
    exact ⟨hc.1.le, hc.2.1.le, hc.2.2.1.le, hc.2.2.2.le⟩

theorem fine_geo {m : Mesh K} {h : K} (g : Geo m h) : Geo (fine m) (h / 2) := by
  refine ⟨by linarith [g.pos], fine_conforming g.conf, ?_, fine_within g, fine_partition g, ?_⟩
  · intro k hk
    obtain ⟨x, hx, p, u, h1, h2, i, hi, hki, h3⟩ := fine_cell g hk
    exact ⟨_, _, h3, axis_kid h2 i⟩
  · intro y hy p q hp hq i
    rcases (mem_fine_edges m y).1 hy with hy | ⟨t, ht, hy⟩
    · obtain ⟨x, hx, v, hv, rfl⟩ := (mem_halves_iff g.conf y).1 hy
      have hl := g.conf.edge_lt x hx
      obtain ⟨a, ha, hma⟩ := getElem?_some_of_lt (l := m.points) (i := x.1.a) (by omega)
      obtain ⟨b, hb, hmb⟩ := getElem?_some_of_lt (l := m.points) (i := x.1.b) (by omega)
      have hmid := fine_point_mid g.conf (List.mem_map.2 ⟨x, hx, rfl⟩ : x.1 ∈ keys m) ha hb
      have eq : q = midpoint a b := Option.some.inj (hq.symm.trans hmid)
      have ep : p = a ∨ p = b := by
        dsimp only at hp
        rw [fine_point_old m (by omega)] at hp
        rcases hv with rfl | rfl
        · exact .inl (Option.some.inj (hp.symm.trans ha))
        · exact .inr (Option.some.inj (hp.symm.trans hb))
      rw [← g.bnd x hx a b ha hb i, eq, onSide_mid (g.within a hma) (g.within b hmb)]
      rcases ep with rfl | rfl <;> tauto
    · obtain ⟨pp, u, hsq, hu⟩ := g.square t.1 (List.fst_mem_of_mem_zipIdx ht)
      have hc := centre_inside hu g.pos (cell_points g hsq)
      have hcen := fine_point_cen (zip_ok g.conf ht).2.2 hsq.1 hsq.2.1 hsq.2.2.1 hsq.2.2.2
      rw [← inner_b hy] at hcen
      have eq := Option.some.inj (hq.symm.trans hcen)
      have hb : y.2.bnd = false := by
        rcases (mem_inner_iff t y).1 hy with rfl | rfl | rfl | rfl <;> rfl
      rw [hb]
      constructor
      · rintro ⟨-, ho⟩
        rw [eq] at ho
        dsimp only at hc
        rcases ho with ⟨-, e⟩ | ⟨-, e⟩ | ⟨-, e⟩ | ⟨-, e⟩
        · exact absurd e hc.2.2.1.ne'
        · exact absurd e hc.2.1.ne
        · exact absurd e hc.2.2.2.ne
        · exact absurd e hc.1.ne'
      · rintro ⟨h, -⟩
        simp at h

/-! ### The first mesh -/

theorem initial_conforming : Conforming (initial : Mesh K) := by
  constructor
  · intro x hx
    simp only [initial, List.mem_cons, List.not_mem_nil, or_false] at hx
    rcases hx with rfl | rfl | rfl | rfl | rfl | rfl | rfl | rfl | rfl | rfl | rfl | rfl <;>
      simp [initial]
  · change (List.map Prod.fst (initial (K := ℚ)).edges).Pairwise (· < ·)
    decide +kernel
  · change ∀ t ∈ (initial (K := ℚ)).quads, t.b ≠ t.c
    decide +kernel
  · change (initial (K := ℚ)).quads.Pairwise (· < ·)
    decide +kernel
  · change ∀ t ∈ (initial (K := ℚ)).quads, ∀ e ∈ sides t, e ∈ (initial (K := ℚ)).edges.map Prod.fst
    decide +kernel
  · change ∀ x ∈ (initial (K := ℚ)).edges, owners (initial (K := ℚ)).quads x.1 = if x.2.bnd then 1 else 2
    decide +kernel

/-- The corner of a cell of the first mesh. -/
def corner0 (t : Quad) : K × K :=
  if t = ⟨0, 1, 3, 4⟩ then (0, 0) else if t = ⟨1, 2, 4, 5⟩ then (1 / 2, 0) else
  if t = ⟨3, 4, 6, 7⟩ then (0, 1 / 2) else (1 / 2, 1 / 2)

theorem initial_square {t : Quad} (ht : t ∈ (initial : Mesh K).quads) :
    IsSquare (initial : Mesh K).points t (corner0 t) (1 / 2, 0) := by
  simp only [initial, List.mem_cons, List.not_mem_nil, or_false] at ht
  have h1 : (1 / 2 : K) + 1 / 2 = 1 := by norm_num
  rcases ht with rfl | rfl | rfl | rfl <;> refine ⟨?_, ?_, ?_, ?_⟩ <;>
    simp [initial, at_, corner0] <;> norm_num

theorem at_half (p : K × K) (s r : K) : at_ p (1 / 2, 0) s r = (p.1 + s / 2, p.2 + r / 2) := by
  simp only [at_, Prod.mk.injEq]
  constructor <;> ring

theorem initial_partition : Partition (initial : Mesh K) := by
  have hq : ∀ t ∈ (initial : Mesh K).quads, t = ⟨0, 1, 3, 4⟩ ∨ t = ⟨1, 2, 4, 5⟩ ∨ t = ⟨3, 4, 6, 7⟩ ∨ t = ⟨4, 5, 7, 8⟩ := by
    intro t ht
    simpa [initial] using ht
  have c1 : corner0 (K := K) ⟨0, 1, 3, 4⟩ = (0, 0) := by simp [corner0]
  have c2 : corner0 (K := K) ⟨1, 2, 4, 5⟩ = (1 / 2, 0) := by simp [corner0]
  have c3 : corner0 (K := K) ⟨3, 4, 6, 7⟩ = (0, 1 / 2) := by simp [corner0]
  have c4 : corner0 (K := K) ⟨4, 5, 7, 8⟩ = (1 / 2, 1 / 2) := by simp [corner0]
  constructor
  · intro t ht p u hsq x hx
    obtain ⟨rfl, rfl⟩ := square_unique hsq (initial_square ht)
    obtain ⟨s, r, h1, h2, h3, h4, rfl⟩ := hx
    rw [at_half]
    rcases hq t ht with rfl | rfl | rfl | rfl <;> simp only [c1, c2, c3, c4] <;>
      refine ⟨?_, ?_, ?_, ?_⟩ <;> linarith
  · intro x a b c d
    have key : ∀ t ∈ (initial : Mesh K).quads, ∀ s r : K, 0 ≤ s → s ≤ 1 → 0 ≤ r → r ≤ 1 →
        x = at_ (corner0 t) (1 / 2, 0) s r →
        ∃ t ∈ (initial : Mesh K).quads, ∃ p u, IsSquare (initial : Mesh K).points t p u ∧ Inside p u x :=
      fun t ht s r h1 h2 h3 h4 e => ⟨t, ht, _, _, initial_square ht, s, r, h1, h2, h3, h4, e⟩
    rcases le_total x.1 (1 / 2) with hs | hs <;> rcases le_total x.2 (1 / 2) with hr | hr
    · refine key ⟨0, 1, 3, 4⟩ (by simp [initial]) (2 * x.1) (2 * x.2) (by linarith) (by linarith) (by linarith)
        (by linarith) ?_
      rw [at_half, c1]; exact Prod.ext (by ring) (by ring)
    · refine key ⟨3, 4, 6, 7⟩ (by simp [initial]) (2 * x.1) (2 * x.2 - 1) (by linarith) (by linarith) (by linarith)
        (by linarith) ?_
      rw [at_half, c3]; exact Prod.ext (by ring) (by ring)
    · refine key ⟨1, 2, 4, 5⟩ (by simp [initial]) (2 * x.1 - 1) (2 * x.2) (by linarith) (by linarith) (by linarith)
        (by linarith) ?_
      rw [at_half, c2]; exact Prod.ext (by ring) (by ring)
    · refine key ⟨4, 5, 7, 8⟩ (by simp [initial]) (2 * x.1 - 1) (2 * x.2 - 1) (by linarith) (by linarith) (by linarith)
        (by linarith) ?_
      rw [at_half, c4]; exact Prod.ext (by ring) (by ring)
  · intro t ht t' ht' p u p' u' h1 h2 x hx hx'
    obtain ⟨rfl, rfl⟩ := square_unique h1 (initial_square ht)
    obtain ⟨rfl, rfl⟩ := square_unique h2 (initial_square ht')
    obtain ⟨s, r, a1, a2, a3, a4, rfl⟩ := hx
    obtain ⟨s', r', b1, b2, b3, b4, e⟩ := hx'
    rw [at_half, at_half, Prod.mk.injEq] at e
    obtain ⟨e1, e2⟩ := e
    rcases hq t ht with rfl | rfl | rfl | rfl <;> rcases hq t' ht' with rfl | rfl | rfl | rfl <;>
      first
        | rfl
        | (exfalso; simp only [c1, c2, c3, c4] at e1 e2; linarith)

theorem initial_geo : Geo (initial : Mesh K) (1 / 2) := by
  refine ⟨by norm_num, initial_conforming, fun t ht => ⟨_, _, initial_square ht, .inl rfl⟩, ?_, initial_partition, ?_⟩
  · intro x hx
    simp only [initial, List.mem_cons, List.not_mem_nil, or_false] at hx
    rcases hx with rfl | rfl | rfl | rfl | rfl | rfl | rfl | rfl | rfl <;> norm_num
  · intro x hx p q hp hq i
    have h01 : ¬ (0 : K) = 1 := by norm_num
    simp only [initial, List.mem_cons, List.not_mem_nil, or_false] at hx
    rcases hx with rfl | rfl | rfl | rfl | rfl | rfl | rfl | rfl | rfl | rfl | rfl | rfl <;>
      simp [initial] at hp hq <;> subst hp <;> subst hq <;>
      norm_num [OnSide, Bd.inner] <;> omega

/-- Meshes of the mesher. -/
theorem level_geo (k : Nat) : ∀ (m : Mesh K) (h : K), Geo m h →
    ∃ m', refineN k m = .ok m' ∧ Geo m' (h / 2 ^ k) ∧ m'.quads.length = 4 ^ k * m.quads.length := by
  induction k with
  | zero => intro m h g; exact ⟨m, rfl, by simpa using g, by simp⟩
  | succ k ih =>
    intro m h g
    obtain ⟨m', h1, h2, h3⟩ := ih (fine m) (h / 2) (fine_geo g)
    refine ⟨m', ?_, ?_, ?_⟩
    · rw [refineN, refine_ok g.conf]; exact h1
    · have : h / 2 / 2 ^ k = h / 2 ^ (k + 1) := by rw [pow_succ]; field_simp
      rwa [this] at h2
    · rw [h3, fine_quads_length, Nat.pow_succ]; ring

end
end Verif.QuadRefine
