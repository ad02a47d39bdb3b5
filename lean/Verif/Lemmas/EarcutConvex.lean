import Verif.Lemmas.Earcut
/-!
Lemmas about ear cutting of convex rings: there is always an ear, and cutting one leaves a convex ring.
-/
namespace Verif.Earcut
open Verif.Spec

set_option linter.unusedSectionVars false

variable {K : Type} [Field K] [LinearOrder K] [IsStrictOrderedRing K]

/-! ### Lines -/

theorem para {u1 u2 d1 d2 w1 w2 : K} (hd : ¬ (d1 = 0 ∧ d2 = 0)) (h1 : u1 * d2 - u2 * d1 = 0)
    (h2 : d1 * w2 - d2 * w1 = 0) : u1 * w2 - u2 * w1 = 0 := by
  by_cases h : d1 = 0
  · have h3 : d2 ≠ 0 := fun h3 => hd ⟨h, h3⟩
    have : d2 * (u1 * w2 - u2 * w1) = 0 := by linear_combination w2 * h1 + u2 * h2
    exact (mul_eq_zero.1 this).resolve_left h3
  · have : d1 * (u1 * w2 - u2 * w1) = 0 := by linear_combination u1 * h2 + w1 * h1
    exact (mul_eq_zero.1 this).resolve_left h

theorem ne_coord {a b : P2 K} (h : a ≠ b) : ¬ (b.x - a.x = 0 ∧ b.y - a.y = 0) := fun ⟨h1, h2⟩ =>
  h (P2.ext (by linarith) (by linarith))

theorem line_trans {a b c p : P2 K} (h : b ≠ c) (h1 : turn a b c = 0) (h2 : turn b c p = 0) : turn a b p = 0 := by
  have := para (u1 := b.x - a.x) (u2 := b.y - a.y) (d1 := c.x - b.x) (d2 := c.y - b.y) (w1 := p.x - b.x)
    (w2 := p.y - b.y) (ne_coord h) (by unfold turn at h1; linear_combination h1)
    (by unfold turn at h2; linear_combination h2)
  unfold turn; linear_combination this

theorem line_triple {a b p q r : P2 K} (h : a ≠ b) (hp : turn a b p = 0) (hq : turn a b q = 0)
    (hr : turn a b r = 0) : turn p q r = 0 := by
  have k : ∀ {u v : P2 K}, turn a b u = 0 → turn a b v = 0 →
      (u.x - a.x) * (v.y - a.y) - (u.y - a.y) * (v.x - a.x) = 0 := fun {u v} hu hv =>
    para (d1 := b.x - a.x) (d2 := b.y - a.y) (ne_coord h) (by unfold turn at hu; linear_combination -hu)
      (by unfold turn at hv; linear_combination hv)
  have h1 := k hp hq
  have h2 := k hq hr
  have h3 := k hr hp
  unfold turn; linear_combination h1 + h2 + h3

/-- Off the line `a c` of a triangle `a b c`, points of the line are told apart by their turns at `b`. -/
theorem on_line_eq {a b c p q : P2 K} (hT : turn a b c ≠ 0) (hp : turn a c p = 0) (hq : turn a c q = 0)
    (h : turn b p q = 0) : p = q := by
  have e : ∀ {p : P2 K}, turn a c p = 0 →
      turn a b c * (p.x - c.x) = turn b c p * (a.x - c.x) ∧ turn a b c * (p.y - c.y) = turn b c p * (a.y - c.y) := by
    intro p hp
    constructor
    · have : turn a b c * (p.x - c.x) = turn b c p * (a.x - c.x) - turn a c p * (b.x - c.x) := by
        unfold turn; ring
      rw [this, hp]; ring
    · have : turn a b c * (p.y - c.y) = turn b c p * (a.y - c.y) - turn a c p * (b.y - c.y) := by
        unfold turn; ring
      rw [this, hp]; ring
  have hs : turn b c p = turn b c q := by
    have : turn a b c * turn b p q = turn a b c * (turn b c q - turn b c p) +
        turn a c p * turn b c q - turn b c p * turn a c q := by
      unfold turn; ring
    rw [h, hp, hq] at this
    have h2 : turn a b c * (turn b c q - turn b c p) = 0 := by linarith
    have := (mul_eq_zero.1 h2).resolve_left hT
    linarith
  obtain ⟨p1, p2⟩ := e hp
  obtain ⟨q1, q2⟩ := e hq
  rw [hs] at p1 p2
  refine P2.ext ?_ ?_
  · have : turn a b c * (p.x - q.x) = 0 := by linear_combination p1 - q1
    have := (mul_eq_zero.1 this).resolve_left hT
    linarith
  · have : turn a b c * (p.y - q.y) = 0 := by linear_combination p2 - q2
    have := (mul_eq_zero.1 this).resolve_left hT
    linarith

/-! ### Convex rings -/

/-- A convex ring: distinct points, all ordered triples turn left. -/
structure Good (r : List (Node K)) : Prop where
  left : ∀ a b c, List.Sublist [a, b, c] r → 0 ≤ turn a.p b.p c.p
  dist : r.Pairwise fun a b => a.p ≠ b.p

/-- All points on a line. -/
def Flat (r : List (Node K)) : Prop := ∀ a b c, List.Sublist [a, b, c] r → turn a.p b.p c.p = 0

theorem sub3_rot {a u v w : Node K} {l : List (Node K)} (h : List.Sublist [u, v, w] (l ++ [a])) :
    List.Sublist [u, v, w] (a :: l) ∨ w = a ∧ List.Sublist [a, u, v] (a :: l) := by
  obtain ⟨l1, l2, e, h1, h2⟩ := List.sublist_append_iff.1 h
  cases h2 with
  | cons _ h2 =>
    cases h2
    rw [List.append_nil] at e
    subst e
    exact Or.inl (h1.cons a)
  | cons_cons _ h2 =>
    cases h2
    have : [u, v] ++ [w] = l1 ++ [a] := e
    obtain ⟨e1, e2⟩ := List.append_inj' this rfl
    cases e2
    subst e1
    exact Or.inr ⟨rfl, h1.cons_cons _⟩

theorem Good.rot1 {a : Node K} {l : List (Node K)} (h : Good (a :: l)) : Good (l ++ [a]) := by
  refine ⟨fun u v w hs => ?_, ?_⟩
  · rcases sub3_rot hs with hs | ⟨rfl, hs⟩
    · exact h.left _ _ _ hs
    · rw [← turn_cyc]; exact h.left _ _ _ hs
  · rw [List.pairwise_append]
    have := List.pairwise_cons.1 h.dist
    refine ⟨this.2, by simp, fun x hx y hy => ?_⟩
    rw [List.mem_singleton] at hy
    subst hy
    exact (this.1 x hx).symm

theorem Flat.rot1 {a : Node K} {l : List (Node K)} (h : Flat (a :: l)) : Flat (l ++ [a]) := by
  intro u v w hs
  rcases sub3_rot hs with hs | ⟨rfl, hs⟩
  · exact h _ _ _ hs
  · rw [← turn_cyc]; exact h _ _ _ hs

theorem Good.rotate {r : List (Node K)} (h : Good r) (n : Nat) : Good (r.rotate n) := by
  induction n generalizing r with
  | zero => simpa using h
  | succ n ih =>
    cases r with
    | nil => simpa using h
    | cons a l => rw [List.rotate_cons_succ]; exact ih h.rot1

theorem Flat.rotate {r : List (Node K)} (h : Flat r) (n : Nat) : Flat (r.rotate n) := by
  induction n generalizing r with
  | zero => simpa using h
  | succ n ih =>
    cases r with
    | nil => simpa using h
    | cons a l => rw [List.rotate_cons_succ]; exact ih h.rot1

theorem Flat.of_rotate {r : List (Node K)} {n : Nat} (h : Flat (r.rotate n)) : Flat r := by
  have := h.rotate (r.length - n % r.length)
  rw [← List.rotate_mod r n, List.rotate_rotate] at this
  rcases Nat.eq_zero_or_pos r.length with h0 | h0
  · rw [List.length_eq_zero_iff.1 h0]; intro a b c hs; cases hs
  · have hm := Nat.mod_lt n h0
    rwa [show n % r.length + (r.length - n % r.length) = r.length by omega, List.rotate_length] at this

theorem Good.sub {r r' : List (Node K)} (h : Good r) (hs : List.Sublist r' r) : Good r' :=
  ⟨fun a b c hx => h.left a b c (hx.trans hs), h.dist.sublist hs⟩

theorem Good.cut {a b c : Node K} {rest} (h : Good (a :: b :: c :: rest)) : Good (c :: rest ++ [a]) :=
  (h.sub (List.Sublist.cons_cons a (List.sublist_cons_self b _))).rot1

/-- If every corner is flat, the ring is on a line. -/
theorem chain_line : ∀ (l : List (Node K)) (a b : Node K), (a :: b :: l).Pairwise (fun a b => a.p ≠ b.p) →
    (∀ s u v w t, a :: b :: l = s ++ u :: v :: w :: t → turn u.p v.p w.p = 0) →
    ∀ x ∈ a :: b :: l, turn a.p b.p x.p = 0 := by
  intro l
  induction l with
  | nil =>
    intro a b _ _ x hx
    simp only [List.mem_cons, List.not_mem_nil, or_false] at hx
    rcases hx with rfl | rfl <;> (unfold turn; ring)
  | cons c l ih =>
    intro a b hd hf x hx
    rcases List.mem_cons.1 hx with rfl | hx
    · unfold turn; ring
    have h1 := ih b c (List.pairwise_cons.1 hd).2
      (fun s u v w t e => hf (a :: s) u v w t (by rw [e]; rfl)) x hx
    have h2 := hf [] a b c l rfl
    have hbc : b.p ≠ c.p := (List.pairwise_cons.1 (List.pairwise_cons.1 hd).2).1 c (by simp)
    exact line_trans hbc h2 h1

theorem flat_of_corners {r : List (Node K)} (hd : r.Pairwise fun a b => a.p ≠ b.p)
    (hf : ∀ s u v w t, r = s ++ u :: v :: w :: t → turn u.p v.p w.p = 0) : Flat r := by
  intro u v w hs
  match r, hd, hf, hs with
  | [], _, _, hs => cases hs
  | [x], _, _, hs => have := hs.length_le; simp at this
  | a :: b :: l, hd, hf, hs =>
    have h := chain_line l a b hd hf
    have hab : a.p ≠ b.p := (List.pairwise_cons.1 hd).1 b (by simp)
    exact line_triple hab (h u (hs.subset (by simp))) (h v (hs.subset (by simp))) (h w (hs.subset (by simp)))

theorem noneInside_false {a b c : P2 K} : ∀ {l : List (Node K)}, noneInside a b c l = false →
    ∃ s u p v t, l = s ++ u :: p :: v :: t ∧ pointInTriangle a b c p.p = true ∧ turn u.p p.p v.p ≤ 0 := by
  intro l
  induction l with
  | nil => intro h; simp [noneInside] at h
  | cons u l ih =>
    intro h
    match l with
    | [] => simp [noneInside] at h
    | [_] => simp [noneInside] at h
    | p :: v :: rest =>
      rw [noneInside, Bool.and_eq_false_iff] at h
      rcases h with h | h
      · rw [Bool.not_eq_false', Bool.and_eq_true, decide_eq_true_iff, area_eq] at h
        exact ⟨[], u, p, v, rest, rfl, h.1, by linarith [h.2]⟩
      · obtain ⟨s, u', p', v', t, e, h1, h2⟩ := ih h
        exact ⟨u :: s, u', p', v', t, by rw [e]; rfl, h1, h2⟩

theorem noneInside_true {a b c : P2 K} {l : List (Node K)}
    (h : ∀ s u p v t, l = s ++ u :: p :: v :: t → ¬ (pointInTriangle a b c p.p = true ∧ turn u.p p.p v.p ≤ 0)) :
    noneInside a b c l = true := by
  by_contra hc
  rw [Bool.not_eq_true] at hc
  obtain ⟨s, u, p, v, t, e, h1, h2⟩ := noneInside_false hc
  exact h s u p v t e ⟨h1, h2⟩

theorem noneInside_elim {a b c : P2 K} : ∀ {l : List (Node K)} (s : List (Node K)) (u p v : Node K) (t),
    noneInside a b c l = true → l = s ++ u :: p :: v :: t →
    ¬ (pointInTriangle a b c p.p = true ∧ turn u.p p.p v.p ≤ 0) := by
  intro l s
  induction s generalizing l with
  | nil =>
    rintro u p v t h rfl ⟨h1, h2⟩
    rw [List.nil_append, noneInside, Bool.and_eq_true, Bool.not_eq_true', Bool.and_eq_false_iff, h1,
      decide_eq_false_iff_not, area_eq] at h
    rcases h.1 with h3 | h3
    · simp at h3
    · exact h3 (by linarith)
  | cons x s ih =>
    rintro u p v t h rfl
    refine ih u p v t ?_ rfl
    match s with
    | [] =>
      rw [List.cons_append, List.nil_append, noneInside, Bool.and_eq_true] at h
      exact h.2
    | [y] =>
      rw [List.cons_append, List.cons_append, List.nil_append, noneInside, Bool.and_eq_true] at h
      exact h.2
    | y :: z :: s =>
      rw [List.cons_append, List.cons_append, List.cons_append, noneInside, Bool.and_eq_true] at h
      exact h.2

/-- A vertex in the closed triangle of a corner is on its third side, strictly between the end points. -/
theorem in_tri {a b c p : P2 K} (hT : 0 < turn a b c) (hac : 0 ≤ turn a c p) (hi : pointInTriangle a b c p = true)
    (hpa : p ≠ a) (hpc : p ≠ c) : turn a c p = 0 ∧ 0 < turn b c p ∧ 0 < turn a b p := by
  rw [pit_iff] at hi
  obtain ⟨h1, h2, h3⟩ := hi
  have e0 : turn a c p = 0 := by
    have : turn p c a = -turn a c p := by unfold turn; ring
    linarith
  refine ⟨e0, ?_, ?_⟩
  · refine lt_of_le_of_ne (by rw [← turn_cyc]; exact h3) (fun h => hpc ?_)
    exact (on_line_eq hT.ne' (by unfold turn; ring) e0 h.symm).symm
  · refine lt_of_le_of_ne (by rw [← turn_cyc]; exact h2) (fun h => hpa ?_)
    refine (on_line_eq (p := a) (q := p) hT.ne' (by unfold turn; ring) e0 ?_).symm
    have : turn b a p = -turn a b p := by unfold turn; ring
    rw [this, ← h, neg_zero]

/-- If a vertex blocks the corner `b`, all vertices after it are on the line `a c`. -/
theorem all_on_line {a b c : Node K} {rest : List (Node K)} (hG : Good (a :: b :: c :: rest))
    (hT : 0 < turn a.p b.p c.p) {p : Node K} (hp : p ∈ rest) (hi : pointInTriangle a.p b.p c.p p.p = true) :
    ∀ q ∈ rest, turn a.p c.p q.p = 0 := by
  have sub : ∀ {x y z : Node K} {l : List (Node K)}, List.Sublist [x, y, z] (a :: l) →
      List.Sublist l (b :: c :: rest) → 0 ≤ turn x.p y.p z.p := fun h1 h2 =>
    hG.left _ _ _ (h1.trans (h2.cons_cons a))
  have hd := hG.dist
  rw [List.pairwise_cons, List.pairwise_cons, List.pairwise_cons] at hd
  have one : ∀ {q : Node K}, q ∈ rest → List.Sublist [q] rest := fun h => List.singleton_sublist.2 h
  have hac : ∀ q ∈ rest, 0 ≤ turn a.p c.p q.p := fun q hq =>
    hG.left _ _ _ ((((one hq).cons_cons c).cons b).cons_cons a)
  obtain ⟨e0, s1, s2⟩ := in_tri hT (hac p hp) hi
    (fun h => hd.1 p (by simp [hp]) h.symm) (fun h => hd.2.2.1 p hp h.symm)
  intro q hq
  by_cases hqp : q = p
  · rw [hqp]; exact e0
  obtain ⟨s, t, rfl⟩ := List.append_of_mem hp
  have e1 : turn a.p b.p c.p * turn c.p q.p p.p = turn b.p c.p p.p * turn a.p c.p q.p := by
    have : turn a.p b.p c.p * turn c.p q.p p.p =
        turn b.p c.p p.p * turn a.p c.p q.p - turn a.p c.p p.p * turn c.p q.p b.p := by unfold turn; ring
    rw [this, e0]; ring
  have e2 : turn a.p b.p c.p * turn a.p q.p p.p = -(turn a.p b.p p.p * turn a.p c.p q.p) := by
    have : turn a.p b.p c.p * turn a.p q.p p.p =
        -(turn a.p b.p p.p * turn a.p c.p q.p) - turn a.p c.p p.p * turn a.p q.p b.p := by unfold turn; ring
    rw [this, e0]; ring
  refine le_antisymm ?_ (hac q hq)
  have hq' : q ∈ s ∨ q ∈ t := by
    rcases List.mem_append.1 hq with h | h
    · exact Or.inl h
    · rcases List.mem_cons.1 h with h | h
      exacts [absurd h hqp, Or.inr h]
  rcases hq' with h | h
  · have hs : List.Sublist [q, p] (s ++ p :: t) :=
      (List.singleton_sublist.2 h).append (List.singleton_sublist.2 (by simp : p ∈ p :: t))
    have h1 : 0 ≤ turn a.p q.p p.p := hG.left _ _ _ (((hs.cons c).cons b).cons_cons a)
    have h2 := mul_nonneg hT.le h1
    rw [e2] at h2
    by_contra hc
    have := mul_pos s2 (not_le.1 hc)
    linarith
  · have hs : List.Sublist [p, q] (s ++ p :: t) :=
      ((List.singleton_sublist.2 h).cons_cons p).trans (List.sublist_append_right s _)
    have h1 : 0 ≤ turn c.p p.p q.p := hG.left _ _ _ (((hs.cons_cons c).cons b).cons a)
    have h3 : turn c.p q.p p.p = -turn c.p p.p q.p := turn_swap _ _ _
    have h2 := mul_nonneg hT.le h1
    by_contra hc
    have := mul_pos s1 (not_le.1 hc)
    rw [h3] at e1
    linarith

/-- A convex ring that is not on a line has an ear. -/
theorem ear_exists {r : List (Node K)} (hG : Good r) (hF : ¬ Flat r) : ∃ j, isEar (r.rotate j) = true := by
  by_contra hn
  have hn' : ∀ j, isEar (r.rotate j) = false := fun j => by
    rw [← Bool.not_eq_true]; exact fun h => hn ⟨j, h⟩
  apply hF
  refine flat_of_corners hG.dist fun s a b c t e => ?_
  have er : r.rotate s.length = a :: b :: c :: (t ++ s) := by
    rw [e, List.rotate_append_length_eq]; rfl
  have hG' := hG.rotate s.length
  rw [er] at hG'
  generalize t ++ s = rest at er hG'
  by_contra hT0
  have hT : 0 < turn a.p b.p c.p := lt_of_le_of_ne
    (hG'.left _ _ _ (by simp)) (Ne.symm hT0)
  have h1 := hn' s.length
  rw [er, isEar, Bool.and_eq_false_iff, decide_eq_false_iff_not, area_eq] at h1
  have h1 := h1.resolve_left (fun h => h (by linarith))
  obtain ⟨s', u, p, v, t', e', hi, _⟩ := noneInside_false h1
  have hp : p ∈ rest := by
    cases s' with
    | nil =>
      rw [List.nil_append, List.cons_append] at e'
      cases rest with
      | nil => simp at e'
      | cons d rest => simp at e'; rw [e'.2.1]; simp
    | cons x s' =>
      rw [List.cons_append, List.cons_append] at e'
      have e2 := (List.cons.inj e').2
      have e3 : rest ++ [a] = (s' ++ [u, p]) ++ v :: t' := by rw [e2]; simp
      have e4 : rest = (s' ++ [u, p]) ++ (v :: t').dropLast := by
        have := congrArg List.dropLast e3
        rwa [List.dropLast_concat, List.dropLast_append_of_ne_nil (by simp)] at this
      rw [e4]; simp
  have hline := all_on_line hG' hT hp hi
  have hd := hG'.dist
  rw [List.pairwise_cons, List.pairwise_cons, List.pairwise_cons] at hd
  cases rest with
  | nil => simp at hp
  | cons d rest =>
    have er2 : r.rotate (s.length + 1) = b :: c :: d :: (rest ++ [a]) := by
      rw [← List.rotate_rotate, er, List.rotate_cons_succ, List.rotate_zero]; rfl
    have hG2 := hG.rotate (s.length + 1)
    have h2 := hn' (s.length + 1)
    rw [er2] at hG2 h2
    have hdl := hline d (by simp)
    have hpos : 0 < turn b.p c.p d.p := lt_of_le_of_ne
      (hG2.left _ _ _ (by simp)) fun h => (hd.2.2.1 d (by simp))
        (on_line_eq hT.ne' (by unfold turn; ring) hdl h.symm)
    rw [isEar, Bool.and_eq_false_iff, decide_eq_false_iff_not, area_eq] at h2
    have h2 := h2.resolve_left (fun h => h (by linarith))
    obtain ⟨s2, u2, q, v2, t2, e2, hi2, _⟩ := noneInside_false h2
    have hq : q ∈ rest ++ [a] := by
      cases s2 with
      | nil =>
        rw [List.nil_append, List.cons_append] at e2
        have e3 := (List.cons.inj e2).2
        have e4 : rest ++ [a] = q :: (v2 :: t2).dropLast := by
          have := congrArg List.dropLast e3
          rwa [List.dropLast_concat, List.dropLast_cons_of_ne_nil (by simp)] at this
        rw [e4]; simp
      | cons x s2 =>
        rw [List.cons_append, List.cons_append] at e2
        have e3 := (List.cons.inj e2).2
        have e3 : (rest ++ [a]) ++ [b] = (s2 ++ [u2, q]) ++ v2 :: t2 := by rw [e3]; simp
        have e4 : rest ++ [a] = (s2 ++ [u2, q]) ++ (v2 :: t2).dropLast := by
          have := congrArg List.dropLast e3
          rwa [List.dropLast_concat, List.dropLast_append_of_ne_nil (by simp)] at this
        rw [e4]; simp
    have hql : turn a.p c.p q.p = 0 := by
      rcases List.mem_append.1 hq with h | h
      · exact hline q (by simp [h])
      · rw [List.mem_singleton.1 h]; unfold turn; ring
    have hbd : 0 ≤ turn b.p d.p q.p :=
      hG2.left _ _ _ ((((List.singleton_sublist.2 hq).cons_cons d).cons c).cons_cons b)
    rw [pit_iff] at hi2
    have h0 : turn b.p d.p q.p = 0 := by
      have : turn q.p d.p b.p = -turn b.p d.p q.p := by unfold turn; ring
      linarith [hi2.1]
    have hdq := on_line_eq hT.ne' hdl hql h0
    have hd2 := hG2.dist
    rw [List.pairwise_cons, List.pairwise_cons, List.pairwise_cons] at hd2
    exact hd2.2.2.1 q hq hdq

/-- Cutting an ear off a convex ring of four or more vertices does not leave a line. -/
theorem cut_not_flat {a b c : Node K} {rest : List (Node K)} (hG : Good (a :: b :: c :: rest)) (hr : rest ≠ [])
    (he : isEar (a :: b :: c :: rest) = true) : ¬ Flat (c :: rest ++ [a]) := by
  intro hF
  have hT := isEar_turn he
  rw [isEar, Bool.and_eq_true] at he
  obtain ⟨p, rest', rfl⟩ := List.exists_cons_of_ne_nil hr
  obtain ⟨v, t, e⟩ : ∃ v t, rest' ++ [a] = v :: t := List.exists_cons_of_ne_nil (by simp)
  refine noneInside_elim [] c p v t he.2 (by rw [List.cons_append, List.cons_append, e]; rfl) ⟨?_, ?_⟩
  · have h1 : turn c.p p.p a.p = 0 := hF _ _ _ (by
      rw [List.cons_append, List.cons_append]
      exact ((List.singleton_sublist.2 (by simp)).cons_cons p).cons_cons c)
    have h2 : 0 ≤ turn b.p c.p p.p := hG.left _ _ _ (by simp)
    have h3 : 0 ≤ turn a.p b.p p.p := hG.left _ _ _ (((by simp : List.Sublist [p] (c :: p :: rest')).cons_cons b).cons_cons a)
    rw [pit_iff]
    refine ⟨?_, by rw [turn_cyc]; exact h3, by rw [turn_cyc]; exact h2⟩
    have : turn p.p c.p a.p = -turn c.p p.p a.p := by unfold turn; ring
    rw [this, h1, neg_zero]
  · exact (hF _ _ _ (by rw [List.cons_append, List.cons_append, e]; simp)).le

theorem findEar_none : ∀ (k : Nat) (r : List (Node K)), 3 ≤ r.length → findEar k r = none →
    ∀ j < k, isEar (r.rotate j) = false := by
  intro k
  induction k with
  | zero => intro r _ _ j hj; omega
  | succ k ih =>
    intro r hl h j hj
    match r, hl with
    | a :: b :: c :: rest, hl =>
      rw [findEar] at h
      split at h
      · simp at h
      · rename_i he
        cases j with
        | zero => simpa using he
        | succ j =>
          rw [List.rotate_cons_succ]
          exact ih _ (by simp) h j (by omega)

theorem findEar_good {r : List (Node K)} (hl : 3 ≤ r.length) (hG : Good r) (hF : ¬ Flat r) :
    ∃ r', findEar r.length r = some r' := by
  cases h : findEar r.length r with
  | some r' => exact ⟨r', rfl⟩
  | none =>
    obtain ⟨j, hj⟩ := ear_exists hG hF
    have := findEar_none _ r hl h (j % r.length) (Nat.mod_lt _ (by omega))
    rw [List.rotate_mod, hj] at this
    simp at this

/-! ### Tiling -/

/-- The relation holds between consecutive elements. -/
def pathAll {α : Type} (Q : α → α → Prop) : List α → Prop
  | a :: b :: l => Q a b ∧ pathAll Q (b :: l)
  | _ => True

theorem pathAll_snoc {α : Type} (Q : α → α → Prop) (l : List α) (x y : α) :
    pathAll Q (l ++ [x, y]) ↔ pathAll Q (l ++ [x]) ∧ Q x y := by
  induction l with
  | nil => simp [pathAll]
  | cons a l ih =>
    cases l with
    | nil => simp [pathAll]
    | cons b l => simp only [List.cons_append, pathAll] at ih ⊢; rw [ih, and_assoc]

/-- The relation holds between consecutive elements of a closed ring. -/
def ringAll {α : Type} (Q : α → α → Prop) : List α → Prop
  | [] => True
  | a :: l => pathAll Q (a :: l ++ [a])

theorem ringAll_rot1 {α : Type} (Q : α → α → Prop) (a : α) (l : List α) :
    ringAll Q (l ++ [a]) ↔ ringAll Q (a :: l) := by
  cases l with
  | nil => rfl
  | cons b l =>
    have := pathAll_snoc Q (b :: l) a b
    simp only [ringAll, List.cons_append, List.append_assoc, List.nil_append, pathAll] at this ⊢
    rw [this, and_comm]

theorem ringAll_rotate {α : Type} (Q : α → α → Prop) (l : List α) (n : Nat) :
    ringAll Q (l.rotate n) ↔ ringAll Q l := by
  induction n generalizing l with
  | zero => simp
  | succ n ih =>
    cases l with
    | nil => simp
    | cons a l => rw [List.rotate_cons_succ, ih, ringAll_rot1]

theorem ringAll_iff {α : Type} (Q : α → α → Prop) (l : List α) :
    ringAll Q l ↔ ∀ e ∈ l.zip (l.rotate 1), Q e.1 e.2 := by
  cases l with
  | nil => simp [ringAll]
  | cons a l =>
    rw [List.rotate_cons_succ, List.rotate_zero]
    simp only [ringAll]
    generalize a = z
    suffices h : ∀ (l : List α) (a : α), pathAll Q (a :: l ++ [z]) ↔
        ∀ e ∈ (a :: l).zip (l ++ [z]), Q e.1 e.2 from h l z
    intro l
    induction l with
    | nil => intro a; simp [pathAll]
    | cons b l ih =>
      intro a
      simp only [List.cons_append, pathAll, List.zip_cons_cons, List.forall_mem_cons]
      rw [← ih b]; rfl

theorem ringAll_cut {α : Type} (Q : α → α → Prop) (a b c : α) (rest : List α) :
    ringAll Q (a :: b :: c :: rest) ↔ Q a b ∧ Q b c ∧ pathAll Q (c :: rest ++ [a]) := by
  simp only [ringAll, List.cons_append, pathAll]

theorem ringAll_cut' {α : Type} (Q : α → α → Prop) (a c : α) (rest : List α) :
    ringAll Q (c :: rest ++ [a]) ↔ Q a c ∧ pathAll Q (c :: rest ++ [a]) := by
  rw [ringAll_rot1]; simp only [ringAll, List.cons_append, pathAll]

theorem pathAll_of {α : Type} (Q : α → α → Prop) : ∀ (l : List α),
    (∀ s u v t, l = s ++ u :: v :: t → Q u v) → pathAll Q l := by
  intro l
  induction l with
  | nil => intro _; trivial
  | cons a l ih =>
    intro h
    cases l with
    | nil => trivial
    | cons b l => exact ⟨h [] a b l rfl, ih fun s u v t e => h (a :: s) u v t (by rw [e]; rfl)⟩

theorem pathAll_imp {α : Type} {Q Q' : α → α → Prop} : ∀ {l : List α},
    pathAll Q l → (∀ a ∈ l, ∀ b ∈ l, Q a b → Q' a b) → pathAll Q' l := by
  intro l
  induction l with
  | nil => intro _ _; trivial
  | cons a l ih =>
    intro h hi
    cases l with
    | nil => trivial
    | cons b l =>
      exact ⟨hi a (by simp) b (by simp) h.1, ih h.2 fun x hx y hy => hi x (by simp [hx]) y (by simp [hy])⟩

/-- No vertex is to the right of a side. -/
theorem Good.sides {r : List (Node K)} (h : Good r) :
    ringAll (fun u v => u.p ≠ v.p ∨ r.length = 1) r ∧
    ringAll (fun u v => ∀ w ∈ r, 0 ≤ turn u.p v.p w.p) r := by
  cases r with
  | nil => exact ⟨trivial, trivial⟩
  | cons a l =>
    have key : ∀ s u v t, a :: l ++ [a] = s ++ u :: v :: t →
        (u.p ≠ v.p ∨ (a :: l).length = 1) ∧ ∀ w ∈ a :: l, 0 ≤ turn u.p v.p w.p := by
      intro s u v t e
      rcases List.eq_nil_or_concat t with rfl | ⟨t', z, rfl⟩
      · have e1 : (a :: l) ++ [a] = (s ++ [u]) ++ [v] := by rw [e]; simp
        obtain ⟨e2, e3⟩ := List.append_inj' e1 rfl
        cases e3
        cases s with
        | nil =>
          simp at e2
          obtain ⟨rfl, rfl⟩ := e2
          exact ⟨by simp, fun w _ => by simp [turn]⟩
        | cons x s =>
          rw [List.cons_append] at e2
          obtain ⟨rfl, rfl⟩ := List.cons.inj e2
          refine ⟨Or.inl ((List.pairwise_cons.1 h.dist).1 u (by simp)).symm, fun w hw => ?_⟩
          rcases List.mem_cons.1 hw with rfl | hw
          · unfold turn; apply le_of_eq; ring
          · rcases List.mem_append.1 hw with hw | hw
            · rw [turn_cyc]
              exact h.left _ _ _ (((List.singleton_sublist.2 hw).append (List.Sublist.refl [u])).cons_cons a)
            · rw [List.mem_singleton.1 hw]; unfold turn; apply le_of_eq; ring
      · have e1 : (a :: l) ++ [a] = (s ++ u :: v :: t') ++ [z] := by rw [e]; simp
        obtain ⟨e2, _⟩ := List.append_inj' e1 rfl
        rw [e2] at h ⊢
        refine ⟨Or.inl ?_, fun w hw => ?_⟩
        · have := (List.pairwise_append.1 h.dist).2.1
          exact (List.pairwise_cons.1 this).1 v (by simp)
        · simp only [List.mem_append, List.mem_cons] at hw
          rcases hw with hw | rfl | rfl | hw
          · rw [← turn_cyc]
            exact h.left _ _ _ ((List.singleton_sublist.2 hw).append (by simp : List.Sublist [u, v] (u :: v :: t')))
          · unfold turn; apply le_of_eq; ring
          · unfold turn; apply le_of_eq; ring
          · exact h.left _ _ _ ((((List.singleton_sublist.2 hw).cons_cons v).cons_cons u).trans
              (List.sublist_append_right s _))
    exact ⟨pathAll_of _ _ fun s u v t e => (key s u v t e).1, pathAll_of _ _ fun s u v t e => (key s u v t e).2⟩

/-- The triangle as points. -/
def triP (t : Node K × Node K × Node K) : P2 K × P2 K × P2 K := (t.1.p, t.2.1.p, t.2.2.p)

/-- `x` is on no line through two vertices of the ring. -/
def Off (r : List (Node K)) (x : P2 K) : Prop := ∀ a ∈ r, ∀ b ∈ r, a.p ≠ b.p → turn a.p b.p x ≠ 0

theorem in_tri_left {u v a b c x : P2 K} (h : InTriangle (a, b, c) x) (ha : 0 ≤ turn u v a) (hb : 0 ≤ turn u v b)
    (hc : 0 ≤ turn u v c) : 0 ≤ turn u v x := by
  obtain ⟨h1, h2, h3⟩ := h
  dsimp only at h1 h2 h3
  have e1 : turn a b x + turn b c x + turn c a x = turn a b c := by unfold turn; ring
  have e : turn a b c * turn u v x = turn b c x * turn u v a + turn c a x * turn u v b + turn a b x * turn u v c := by
    unfold turn; ring
  have hT : 0 < turn a b c := by linarith
  by_contra hn
  have := mul_neg_of_pos_of_neg hT (not_le.1 hn)
  have := mul_nonneg h2.le ha
  have := mul_nonneg h3.le hb
  have := mul_nonneg h1.le hc
  linarith

/-- A point strictly inside a triangle of vertices of a convex ring is to the left of all its sides. -/
theorem outside_none {r : List (Node K)} (hG : Good r) (hl : r.length ≠ 1) {x : P2 K} (hx : Off r x)
    {t : Node K × Node K × Node K} (h1 : t.1 ∈ r) (h2 : t.2.1 ∈ r) (h3 : t.2.2 ∈ r)
    (hi : InTriangle (triP t) x) : ringAll (fun u v => 0 < turn u.p v.p x) r := by
  obtain ⟨d, l⟩ := hG.sides
  cases r with
  | nil => simp at h1
  | cons a r =>
    have both : pathAll (fun u v : Node K => (u.p ≠ v.p) ∧ ∀ w ∈ a :: r, 0 ≤ turn u.p v.p w.p) (a :: r ++ [a]) := by
      simp only [ringAll] at d l
      revert d l
      generalize a :: r ++ [a] = L
      intro d l
      induction L with
      | nil => trivial
      | cons p L ih =>
        cases L with
        | nil => trivial
        | cons q L => exact ⟨⟨d.1.resolve_right hl, l.1⟩, ih d.2 l.2⟩
    refine pathAll_imp both fun u hu v hv h => ?_
    have m : ∀ {u : Node K}, u ∈ a :: r ++ [a] → u ∈ a :: r := fun h => by
      simp only [List.mem_append, List.mem_cons, List.not_mem_nil, or_false] at h ⊢; tauto
    have := in_tri_left hi (h.2 _ h1) (h.2 _ h2) (h.2 _ h3)
    exact lt_of_le_of_ne this (Ne.symm (hx u (m hu) v (m hv) h.1))

/-- The number of triangles around a point. -/
def cnt (T : List (Node K × Node K × Node K)) (x : P2 K) : Nat :=
  (T.filter fun t => decide (InTriangle (triP t) x)).length

theorem slice_small (m : Nat) (r : List (Node K)) (h : r.length < 3) : slice m r = ([], r) := by
  cases m with
  | zero => rfl
  | succ m =>
    have : findEar r.length r = none := by
      match r, h with
      | [], _ => rfl
      | [_], _ => rfl
      | [_, _], _ => rfl
    rw [slice, this]

theorem slice_good : ∀ (m : Nat) (r : List (Node K)), r.length ≤ m → 3 ≤ r.length → Good r → ¬ Flat r →
    (slice m r).2.length < 3 ∧ (slice m r).1.length + 2 = r.length ∧
    ∀ x, Off r x → ringAll (fun u v => 0 < turn u.p v.p x) r → cnt (slice m r).1 x = 1 := by
  intro m
  induction m with
  | zero => intro r h1 h2; omega
  | succ m ih =>
    intro r hm hl hG hF
    obtain ⟨r', hr'⟩ := findEar_good hl hG hF
    obtain ⟨⟨j, hj⟩, he⟩ := findEar_spec _ _ _ hr'
    have hlen : r'.length = r.length := by rw [hj, List.length_rotate]
    match r', hlen with
    | [], hlen => simp at hlen; omega
    | [_], hlen => simp at hlen; omega
    | [_, _], hlen => simp at hlen; omega
    | a :: b :: c :: rest, hlen =>
      have hG' : Good (a :: b :: c :: rest) := by rw [hj]; exact hG.rotate j
      have hT := isEar_turn he
      have hcut := hG'.cut
      rw [slice, hr']
      dsimp only
      have hlen' : rest.length + 3 = r.length := by simpa using hlen
      have hslen : (c :: rest ++ [a]).length = rest.length + 2 := by simp
      have hin : ∀ x, Off r x → ringAll (fun u v => 0 < turn u.p v.p x) r →
          0 < turn a.p b.p x ∧ 0 < turn b.p c.p x ∧ pathAll (fun u v => 0 < turn u.p v.p x) (c :: rest ++ [a]) := by
        intro x _ hx
        rw [← ringAll_rotate _ r j, ← hj] at hx
        exact (ringAll_cut _ a b c rest).1 hx
      have hac : ∀ x, Off r x → turn a.p c.p x ≠ 0 := by
        intro x hx
        have ma : a ∈ r := by rw [← List.mem_rotate (n := j), ← hj]; simp
        have mc : c ∈ r := by rw [← List.mem_rotate (n := j), ← hj]; simp
        refine hx a ma c mc ((List.pairwise_cons.1 hG'.dist).1 c (by simp))
      have hneg : ∀ x, turn c.p a.p x = -turn a.p c.p x := fun x => by unfold turn; ring
      cases hrest : rest with
      | nil =>
        subst hrest
        rw [slice_small m _ (by simp)]
        refine ⟨by simp, by simpa using hlen', fun x hx ha => ?_⟩
        obtain ⟨h1, h2, h3⟩ := hin x hx ha
        simp only [List.nil_append, List.cons_append, pathAll, and_true] at h3
        have : InTriangle (triP (a, b, c)) x := ⟨h1, h2, h3⟩
        simp [cnt, this]
      | cons d rest' =>
        rw [← hrest]
        have hF' := cut_not_flat hG' (by rw [hrest]; simp) he
        have hn : 3 ≤ (c :: rest ++ [a]).length := by rw [hslen, hrest]; simp
        obtain ⟨i1, i2, i3⟩ := ih (c :: rest ++ [a]) (by rw [hslen]; omega) hn hcut hF'
        refine ⟨i1, by rw [List.length_cons]; omega, fun x hx ha => ?_⟩
        obtain ⟨h1, h2, h3⟩ := hin x hx ha
        have hoff : Off (c :: rest ++ [a]) x := by
          have m : ∀ {u}, u ∈ c :: rest ++ [a] → u ∈ r := fun {u} hu => by
            rw [← List.mem_rotate (n := j), ← hj]
            exact (cut_within a b c rest).left u hu
          exact fun u hu v hv => hx u (m hu) v (m hv)
        rcases lt_or_gt_of_ne (hac x hx) with hlt | hgt
        · have ht : InTriangle (triP (a, b, c)) x := ⟨h1, h2, by
            show 0 < turn c.p a.p x
            rw [hneg]; linarith⟩
          have h0 : cnt (slice m (c :: rest ++ [a])).1 x = 0 := by
            rw [cnt, List.length_eq_zero_iff, List.filter_eq_nil_iff]
            intro t ht' hi
            rw [decide_eq_true_iff] at hi
            obtain ⟨m1, m2, m3⟩ := (slice_spec m (c :: rest ++ [a])).1.tri t ht'
            have := outside_none hcut (by omega) hoff m1 m2 m3 hi
            rw [ringAll_cut'] at this
            linarith [this.1]
          have e : cnt ((a, b, c) :: (slice m (c :: rest ++ [a])).1) x
              = cnt (slice m (c :: rest ++ [a])).1 x + 1 := by
            simp only [cnt, List.filter_cons, ht, decide_true, if_true, List.length_cons]
          rw [e, h0]
        · have ht : ¬ InTriangle (triP (a, b, c)) x := fun h => by
            have h4 : 0 < turn c.p a.p x := h.2.2
            rw [hneg] at h4; linarith
          have e : cnt ((a, b, c) :: (slice m (c :: rest ++ [a])).1) x
              = cnt (slice m (c :: rest ++ [a])).1 x := by
            simp only [cnt, List.filter_cons, ht, decide_false, Bool.false_eq_true, if_false]
          rw [e]
          exact i3 x hoff ((ringAll_cut' _ a c rest).2 ⟨hgt, h3⟩)

theorem linked_good (m : Nat) (r : List (Node K)) (hl : 3 ≤ r.length) (hG : Good r) (hF : ¬ Flat r) :
    linked (m + 1) r = ⟨(slice r.length r).1, true⟩ := by
  rw [linked]
  dsimp only
  rw [if_pos (slice_good _ r le_rfl hl hG hF).1]

end Verif.Earcut
