import Verif.Model.Earcut
import Verif.Spec.Earcut
import Mathlib.Tactic.Ring
import Mathlib.Tactic.Linarith
import Mathlib.Tactic.LinearCombination
/-!
Lemmas about ear cutting: signed sums along closed rings, and ears of convex rings.
-/
namespace Verif.Earcut
open Verif.Spec

set_option linter.unusedSectionVars false

variable {K : Type} [Field K] [LinearOrder K] [IsStrictOrderedRing K]

/-! ### Turns -/

theorem area_eq (p q r : P2 K) : area p q r = -turn p q r := by unfold area turn; ring

theorem turn_cyc (a b c : P2 K) : turn a b c = turn b c a := by unfold turn; ring

theorem turn_swap (a b c : P2 K) : turn a c b = -turn a b c := by unfold turn; ring

theorem equals_iff (p q : P2 K) : equals p q = true ↔ p = q := by
  unfold equals; rw [Bool.and_eq_true, decide_eq_true_iff, decide_eq_true_iff]
  exact ⟨fun h => P2.ext h.1 h.2, fun h => by rw [h]; exact ⟨rfl, rfl⟩⟩

theorem pit_iff (a b c p : P2 K) :
    pointInTriangle a b c p = true ↔ 0 ≤ turn p c a ∧ 0 ≤ turn p a b ∧ 0 ≤ turn p b c := by
  unfold pointInTriangle
  rw [Bool.and_eq_true, Bool.and_eq_true, decide_eq_true_iff, decide_eq_true_iff, decide_eq_true_iff]
  have h : ∀ u v : P2 K, (u.x - p.x) * (v.y - p.y) - (v.x - p.x) * (u.y - p.y) = turn p u v := fun u v => by
    unfold turn; ring
  rw [h, h, h, and_assoc]

/-! ### Signed sums along rings -/

/-- The sum of `f` over consecutive elements. -/
def pathSum {α : Type} (f : α → α → K) : List α → K
  | a :: b :: l => f a b + pathSum f (b :: l)
  | _ => 0

theorem pathSum_snoc {α : Type} (f : α → α → K) (l : List α) (x y : α) :
    pathSum f (l ++ [x, y]) = pathSum f (l ++ [x]) + f x y := by
  induction l with
  | nil => simp [pathSum]
  | cons a l ih =>
    cases l with
    | nil => simp [pathSum]
    | cons b l => simp only [List.cons_append, pathSum] at ih ⊢; rw [ih]; ring

/-- The sum over a closed ring. -/
def ringSum {α : Type} (f : α → α → K) : List α → K
  | [] => 0
  | a :: l => pathSum f (a :: l ++ [a])

theorem ringSum_rot1 {α : Type} (f : α → α → K) (a : α) (l : List α) : ringSum f (l ++ [a]) = ringSum f (a :: l) := by
  cases l with
  | nil => rfl
  | cons b l =>
    have := pathSum_snoc f (b :: l) a b
    simp only [ringSum, List.cons_append, List.append_assoc, List.nil_append, pathSum] at this ⊢
    rw [this]; ring

theorem ringSum_rotate {α : Type} (f : α → α → K) (l : List α) (n : Nat) : ringSum f (l.rotate n) = ringSum f l := by
  induction n generalizing l with
  | zero => simp
  | succ n ih =>
    cases l with
    | nil => simp
    | cons a l => rw [List.rotate_cons_succ, ih, ringSum_rot1]

theorem ringSum_eq {α : Type} (f : α → α → K) (l : List α) :
    ringSum f l = ((l.zip (l.rotate 1)).map fun e => f e.1 e.2).sum := by
  cases l with
  | nil => rfl
  | cons a l =>
    rw [List.rotate_cons_succ, List.rotate_zero]
    simp only [ringSum]
    generalize a = z
    suffices h : ∀ (l : List α) (a : α), pathSum f (a :: l ++ [z]) =
        (((a :: l).zip (l ++ [z])).map fun e => f e.1 e.2).sum from h l z
    intro l
    induction l with
    | nil => intro a; simp [pathSum]
    | cons b l ih => intro a; simp only [List.cons_append, pathSum, List.zip_cons_cons, List.map_cons, List.sum_cons]
                     rw [← ih b]; rfl

theorem pathSum_reverse {α : Type} (f : α → α → K) (hf : ∀ a b, f a b = -f b a) (l : List α) :
    pathSum f l.reverse = -pathSum f l := by
  induction l with
  | nil => simp [pathSum]
  | cons a l ih =>
    cases l with
    | nil => simp [pathSum]
    | cons b l =>
      rw [List.reverse_cons, List.reverse_cons, List.append_assoc]
      show pathSum f (l.reverse ++ [b, a]) = _
      rw [pathSum_snoc, ← List.reverse_cons, ih, hf b a]
      simp only [pathSum]; ring

theorem ringSum_reverse {α : Type} (f : α → α → K) (hf : ∀ a b, f a b = -f b a) (l : List α) :
    ringSum f l.reverse = -ringSum f l := by
  cases l with
  | nil => simp [ringSum]
  | cons a l =>
    rw [List.reverse_cons, ringSum_rot1]
    simp only [ringSum]
    rw [← pathSum_reverse f hf]
    simp

theorem ringSum_map {α β : Type} (f : β → β → K) (g : α → β) (l : List α) :
    ringSum f (l.map g) = ringSum (fun a b => f (g a) (g b)) l := by
  rw [ringSum_eq, ringSum_eq, ← List.map_rotate, List.zip_map, List.map_map]
  rfl

section signed
variable {μ : P2 K → P2 K → P2 K → K} (hμ : SignedIntegral μ) (o : P2 K)
include hμ

theorem mu_anti (a b : P2 K) : μ o a b = -μ o b a := by
  have h := hμ.cut o a b a
  have h1 := hμ.flat o a a (by unfold turn; ring)
  have h2 := hμ.flat a b a (by unfold turn; ring)
  rw [h1, h2] at h
  linarith

theorem mu_ear (a b c : P2 K) : μ o a b + μ o b c = μ a b c + μ o a c := by
  have h := hμ.cut a b c o
  rw [← hμ.cyc o a c, ← hμ.cyc o b c, ← hμ.cyc o a b] at h
  linarith

/-- The sum along the ring of nodes, seen from `o`. -/
def rs (μ : P2 K → P2 K → P2 K → K) (o : P2 K) (r : List (Node K)) : K := ringSum (fun a b => μ o a.p b.p) r

/-- The sum over a list of triangles. -/
def ts (μ : P2 K → P2 K → P2 K → K) (l : List (Node K × Node K × Node K)) : K :=
  (l.map fun t => μ t.1.p t.2.1.p t.2.2.p).sum

omit hμ in
theorem ts_append (l l' : List (Node K × Node K × Node K)) : ts μ (l ++ l') = ts μ l + ts μ l' := by
  simp [ts]

omit hμ in
theorem ts_cons (t : Node K × Node K × Node K) (l) : ts μ (t :: l) = μ t.1.p t.2.1.p t.2.2.p + ts μ l := by
  simp [ts]

theorem rs_cut (a b c : Node K) (rest : List (Node K)) :
    rs μ o (a :: b :: c :: rest) = μ a.p b.p c.p + rs μ o (c :: rest ++ [a]) := by
  unfold rs
  rw [ringSum_rot1]
  simp only [ringSum, List.cons_append, pathSum]
  have := mu_ear hμ o a.p b.p c.p
  linarith

theorem rs_small (r : List (Node K)) (h : r.length < 3) : rs μ o r = 0 := by
  match r, h with
  | [], _ => rfl
  | [a], _ =>
    have := hμ.flat o a.p a.p (by unfold turn; ring)
    simp [rs, ringSum, pathSum, this]
  | [a, b], _ =>
    have := mu_anti hμ o a.p b.p
    simp [rs, ringSum, pathSum, this]

end signed

/-! ### What the passes keep -/

/-- The nodes of the triangles and of the ring that is left are nodes of the ring. -/
structure Within (T : List (Node K × Node K × Node K)) (r r' : List (Node K)) : Prop where
  tri : ∀ t ∈ T, t.1 ∈ r ∧ t.2.1 ∈ r ∧ t.2.2 ∈ r
  left : ∀ x ∈ r', x ∈ r

/-- The triangles are counter-clockwise and, with the ring that is left, make up the ring. -/
structure Splits (T : List (Node K × Node K × Node K)) (r r' : List (Node K)) : Prop where
  sum : ∀ μ o, SignedIntegral μ → rs μ o r = ts μ T + rs μ o r'
  pos : ∀ t ∈ T, 0 < turn t.1.p t.2.1.p t.2.2.p

theorem Within.refl (r : List (Node K)) : Within [] r r := ⟨by simp, fun _ h => h⟩

theorem Within.trans {T T' : List (Node K × Node K × Node K)} {r r' r'' : List (Node K)} (h : Within T r r')
    (h' : Within T' r' r'') : Within (T ++ T') r r'' := by
  refine ⟨fun t ht => ?_, fun x hx => h.left x (h'.left x hx)⟩
  rcases List.mem_append.1 ht with ht | ht
  · exact h.tri t ht
  · obtain ⟨h1, h2, h3⟩ := h'.tri t ht
    exact ⟨h.left _ h1, h.left _ h2, h.left _ h3⟩

theorem Splits.refl (r : List (Node K)) : Splits [] r r := ⟨fun μ o _ => by simp [ts], by simp⟩

theorem Splits.trans {T T' : List (Node K × Node K × Node K)} {r r' r'' : List (Node K)} (h : Splits T r r')
    (h' : Splits T' r' r'') : Splits (T ++ T') r r'' := by
  refine ⟨fun μ o hm => ?_, fun t ht => ?_⟩
  · rw [h.sum μ o hm, h'.sum μ o hm, ts_append]; ring
  · rcases List.mem_append.1 ht with ht | ht
    exacts [h.pos t ht, h'.pos t ht]

theorem Within.rotate (r : List (Node K)) (j : Nat) : Within [] r (r.rotate j) :=
  ⟨by simp, fun _ h => List.mem_rotate.1 h⟩

theorem Splits.rotate (r : List (Node K)) (j : Nat) : Splits [] r (r.rotate j) :=
  ⟨fun μ o _ => by simp [ts, rs, ringSum_rotate], by simp⟩

theorem findEar_spec : ∀ (k : Nat) (r r' : List (Node K)), findEar k r = some r' →
    (∃ j, r' = r.rotate j) ∧ isEar r' = true := by
  intro k
  induction k with
  | zero => intro r r' h; simp [findEar] at h
  | succ k ih =>
    intro r r' h
    match r with
    | [] => simp [findEar] at h
    | [_] => simp [findEar] at h
    | [_, _] => simp [findEar] at h
    | a :: b :: c :: rest =>
      rw [findEar] at h
      split at h
      · rename_i he
        cases h
        exact ⟨⟨0, by simp⟩, he⟩
      · obtain ⟨⟨j, hj⟩, he⟩ := ih _ _ h
        exact ⟨⟨j + 1, by rw [List.rotate_cons_succ]; exact hj⟩, he⟩

theorem isEar_turn {a b c : Node K} {rest} (h : isEar (a :: b :: c :: rest) = true) : 0 < turn a.p b.p c.p := by
  rw [isEar, Bool.and_eq_true, decide_eq_true_iff, area_eq] at h
  linarith [h.1]

theorem cut_within (a b c : Node K) (rest : List (Node K)) :
    Within [(a, b, c)] (a :: b :: c :: rest) (c :: rest ++ [a]) := by
  refine ⟨by simp, fun x hx => ?_⟩
  simp only [List.cons_append, List.mem_cons, List.mem_append, List.not_mem_nil, or_false] at hx ⊢
  tauto

theorem cut_splits (a b c : Node K) (rest : List (Node K)) (h : 0 < turn a.p b.p c.p) :
    Splits [(a, b, c)] (a :: b :: c :: rest) (c :: rest ++ [a]) :=
  ⟨fun μ o hm => by rw [rs_cut hm, ts_cons]; simp [ts], by simpa using h⟩

theorem slice_spec : ∀ (m : Nat) (r : List (Node K)),
    Within (slice m r).1 r (slice m r).2 ∧ Splits (slice m r).1 r (slice m r).2 := by
  intro m
  induction m with
  | zero => intro r; exact ⟨Within.refl r, Splits.refl r⟩
  | succ m ih =>
    intro r
    rw [slice]
    split
    · rename_i a b c rest h
      obtain ⟨⟨j, hj⟩, he⟩ := findEar_spec _ _ _ h
      obtain ⟨h1, h2⟩ := ih (c :: rest ++ [a])
      have w0 := Within.rotate r j
      have s0 := Splits.rotate r j
      rw [← hj] at w0 s0
      exact ⟨(w0.trans (cut_within a b c rest)).trans h1,
        (s0.trans (cut_splits a b c rest (isEar_turn he))).trans h2⟩
    · exact ⟨Within.refl r, Splits.refl r⟩

theorem findFlat_spec : ∀ (k : Nat) (r r' : List (Node K)) (f : Bool), findFlat k r = (f, r') →
    (∃ j, r' = r.rotate j) ∧
    (f = true → ∀ a b c rest, r' = a :: b :: c :: rest → turn a.p b.p c.p = 0) := by
  intro k
  induction k with
  | zero => intro r r' f h; simp [findFlat] at h; exact ⟨⟨0, by simp [h.2]⟩, by simp [← h.1]⟩
  | succ k ih =>
    intro r r' f h
    match r with
    | [] => simp [findFlat] at h; exact ⟨⟨0, by simp [h.2]⟩, by simp [← h.1]⟩
    | [_] => simp [findFlat] at h; exact ⟨⟨0, by simp [h.2]⟩, by simp [← h.1]⟩
    | [_, _] => simp [findFlat] at h; exact ⟨⟨0, by simp [h.2]⟩, by simp [← h.1]⟩
    | a :: b :: c :: rest =>
      rw [findFlat] at h
      split at h
      · rename_i he
        cases h
        refine ⟨⟨0, by simp⟩, fun _ a' b' c' rest' hr => ?_⟩
        cases hr
        rw [Bool.or_eq_true, equals_iff, decide_eq_true_iff, area_eq] at he
        rcases he with he | he
        · rw [he]; unfold turn; ring
        · linarith
      · obtain ⟨⟨j, hj⟩, he⟩ := ih _ _ _ h
        exact ⟨⟨j + 1, by rw [List.rotate_cons_succ]; exact hj⟩, he⟩

theorem last_cons (a c : Node K) (rest : List (Node K)) :
    (c :: rest).getLast (by simp) :: a :: (c :: rest).dropLast
      = (a :: c :: rest).rotate ((c :: rest).length) := by
  have : (c :: rest).dropLast ++ [(c :: rest).getLast (by simp)] = c :: rest := List.dropLast_append_getLast (by simp)
  have h2 : a :: c :: rest = (a :: (c :: rest).dropLast) ++ [(c :: rest).getLast (by simp)] := by
    rw [List.cons_append, this]
  conv_rhs => rw [h2]
  have h3 : (c :: rest).length = (a :: (c :: rest).dropLast).length := by simp
  rw [h3, List.rotate_append_length_eq]
  rfl

theorem filter_spec : ∀ (m k : Nat) (r : List (Node K)),
    Within [] r (filterPoints m k r) ∧ Splits [] r (filterPoints m k r) := by
  intro m
  induction m with
  | zero => intro k r; exact ⟨Within.refl r, Splits.refl r⟩
  | succ m ih =>
    intro k r
    unfold filterPoints
    split
    · rename_i a b
      refine ⟨⟨by simp, by simp⟩, ⟨fun μ o hm => ?_, by simp⟩⟩
      rw [rs_small hm o _ (by simp), rs_small hm o _ (by simp)]; simp [ts]
    · split
      · rename_i a b c rest h
        obtain ⟨⟨j, hj⟩, hf⟩ := findFlat_spec _ _ _ _ h
        have w0 := Within.rotate r j
        have s0 := Splits.rotate r j
        rw [← hj] at w0 s0
        obtain ⟨w1, s1⟩ := ih (rest.length + 2) ((c :: rest).getLast (by simp) :: a :: (c :: rest).dropLast)
        have w2 : Within [] (a :: b :: c :: rest) ((c :: rest).getLast (by simp) :: a :: (c :: rest).dropLast) := by
          rw [last_cons]
          refine ⟨by simp, fun x hx => ?_⟩
          rw [List.mem_rotate] at hx
          simp only [List.mem_cons] at hx ⊢; tauto
        have s2 : Splits [] (a :: b :: c :: rest) ((c :: rest).getLast (by simp) :: a :: (c :: rest).dropLast) := by
          refine ⟨fun μ o hm => ?_, by simp⟩
          rw [last_cons, rs_cut hm, hm.flat _ _ _ (hf rfl _ _ _ _ rfl)]
          simp only [rs, ringSum_rotate, ts]
          rw [ringSum_rot1]; simp
        exact ⟨(w0.trans w2).trans w1, (s0.trans s2).trans s1⟩
      · rename_i f r' _ h
        obtain ⟨⟨j, hj⟩, _⟩ := findFlat_spec _ _ _ _ h
        rw [hj]
        exact ⟨Within.rotate r j, Splits.rotate r j⟩

theorem findCross_spec : ∀ (k : Nat) (r r' : List (Node K)) (f : Bool), findCross k r = (f, r') →
    ∃ j, r' = r.rotate j := by
  intro k
  induction k with
  | zero => intro r r' f h; simp [findCross] at h; exact ⟨0, by simp [h.2]⟩
  | succ k ih =>
    intro r r' f h
    match r with
    | [] => simp [findCross] at h; exact ⟨0, by simp [h.2]⟩
    | [a] => simp only [findCross, Prod.mk.injEq] at h; exact ⟨_, h.2.symm⟩
    | [a, b] => simp only [findCross, Prod.mk.injEq] at h; exact ⟨_, h.2.symm⟩
    | [a, b, c] => simp only [findCross, Prod.mk.injEq] at h; exact ⟨_, h.2.symm⟩
    | a :: b :: c :: d :: rest =>
      rw [findCross] at h
      split at h
      · cases h; exact ⟨0, by simp⟩
      · obtain ⟨j, hj⟩ := ih _ _ _ h
        exact ⟨j + 1, by rw [List.rotate_cons_succ]; exact hj⟩

theorem cure_spec : ∀ (m k : Nat) (r : List (Node K)),
    Within (cure m k r).1 r (cure m k r).2 ∧ ((cure m k r).1.isEmpty = true → Splits [] r (cure m k r).2) := by
  intro m
  induction m with
  | zero => intro k r; exact ⟨Within.refl r, fun _ => Splits.refl r⟩
  | succ m ih =>
    intro k r
    rw [cure]
    split
    · rename_i a p q b rest h
      obtain ⟨j, hj⟩ := findCross_spec _ _ _ _ h
      have w0 := Within.rotate r j
      rw [← hj] at w0
      obtain ⟨w1, _⟩ := ih (rest.length + 1) (b :: rest ++ [a])
      have w2 : Within [(a, p, b)] (a :: p :: q :: b :: rest) (b :: rest ++ [a]) := by
        refine ⟨by simp, fun x hx => ?_⟩
        simp only [List.cons_append, List.mem_cons, List.mem_append, List.not_mem_nil, or_false] at hx ⊢
        tauto
      exact ⟨(w0.trans w2).trans w1, by simp⟩
    · rename_i f r' _ h
      obtain ⟨j, hj⟩ := findCross_spec _ _ _ _ h
      rw [hj]
      exact ⟨Within.rotate r j, fun _ => Splits.rotate r j⟩

theorem findB_spec (E : List (Node K × Node K)) (a' a n : Node K) : ∀ (rest : List (Node K)) (bp : Node K)
    (seen ra rc : List (Node K)), findB E a' a n bp seen rest = some (ra, rc) →
    ∃ s u b v, seen ++ [bp] ++ rest = s ++ [u] ++ b :: v ∧ ra = a' :: a :: b :: v ∧ rc = u :: b :: a :: s := by
  intro rest
  induction rest with
  | nil => intro bp seen ra rc h; simp [findB] at h
  | cons b rest ih =>
    intro bp seen ra rc h
    rw [findB] at h
    split at h
    · cases h; exact ⟨seen, bp, b, rest, rfl, rfl, rfl⟩
    · obtain ⟨s, u, b', v, h1, h2, h3⟩ := ih _ _ _ _ h
      exact ⟨s, u, b', v, by rw [← h1]; simp, h2, h3⟩

theorem findDiagonal_spec : ∀ (k : Nat) (r ra rc : List (Node K)), findDiagonal k r = some (ra, rc) →
    (Within [] r ra ∧ Within [] r rc) ∧ ∀ μ o, SignedIntegral μ → rs μ o r = rs μ o ra + rs μ o rc := by
  intro k
  induction k with
  | zero => intro r ra rc h; simp [findDiagonal] at h
  | succ k ih =>
    intro r ra rc h
    match r with
    | [] => simp [findDiagonal] at h
    | [_] => simp [findDiagonal] at h
    | [_, _] => simp [findDiagonal] at h
    | a' :: a :: n :: rest =>
      rw [findDiagonal] at h
      split at h
      · rename_i s hs
        cases h
        obtain ⟨s, u, b, v, h1, rfl, rfl⟩ := findB_spec _ _ _ _ _ _ _ _ _ hs
        have h1' : n :: rest = s ++ u :: b :: v := by simpa using h1
        rw [h1']
        refine ⟨⟨⟨by simp, fun x hx => ?_⟩, ⟨by simp, fun x hx => ?_⟩⟩, fun μ o hm => ?_⟩
        · simp only [List.mem_cons, List.mem_append] at hx ⊢; tauto
        · simp only [List.mem_cons, List.mem_append] at hx ⊢; tauto
        · have key : ∀ (s : List (Node K)) (a : Node K),
              pathSum (fun a b => μ o a.p b.p) (a :: (s ++ u :: b :: v) ++ [a']) =
              pathSum (fun a b => μ o a.p b.p) (a :: (s ++ [u, b])) +
                pathSum (fun a b => μ o a.p b.p) (b :: v ++ [a']) := by
            intro s
            induction s with
            | nil => intro a; simp only [List.nil_append, List.cons_append, pathSum]; ring
            | cons c s ihs => intro a; simp only [List.cons_append, pathSum] at ihs ⊢; rw [ihs]; ring
          have k1 := key s a
          have k2 : rs μ o (u :: b :: a :: s) = rs μ o (b :: a :: s ++ [u]) := (ringSum_rot1 _ u _).symm
          rw [k2]
          simp only [rs, ringSum]
          have e1 : pathSum (fun a b => μ o a.p b.p) (a' :: a :: (s ++ u :: b :: v) ++ [a'])
              = μ o a'.p a.p + pathSum (fun a b => μ o a.p b.p) (a :: (s ++ u :: b :: v) ++ [a']) := by
            simp only [List.cons_append, pathSum]
          have e2 : pathSum (fun a b => μ o a.p b.p) (b :: (a :: s ++ [u]) ++ [b])
              = μ o b.p a.p + pathSum (fun a b => μ o a.p b.p) (a :: (s ++ [u, b])) := by
            simp only [List.cons_append, List.append_assoc, List.nil_append, pathSum]
          have e3 : pathSum (fun a b => μ o a.p b.p) (a' :: a :: b :: v ++ [a'])
              = μ o a'.p a.p + (μ o a.p b.p + pathSum (fun a b => μ o a.p b.p) (b :: v ++ [a'])) := by
            simp only [List.cons_append, pathSum]
          rw [e1, e3, k1]
          have e2' := e2
          simp only [List.cons_append] at e2' ⊢
          rw [e2', mu_anti hm o b.p a.p]
          ring
      · obtain ⟨⟨w1, w2⟩, hs⟩ := ih _ _ _ h
        have w0 := Within.rotate (a' :: a :: n :: rest) 1
        have s0 := Splits.rotate (a' :: a :: n :: rest) 1
        rw [List.rotate_cons_succ, List.rotate_zero] at w0 s0
        refine ⟨⟨w0.trans w1, w0.trans w2⟩, fun μ o hm => ?_⟩
        rw [s0.sum μ o hm, hs μ o hm]; simp [ts]

theorem linked_spec : ∀ (m : Nat) (r : List (Node K)),
    Within (linked m r).tris r [] ∧ ((linked m r).clean = true → Splits (linked m r).tris r []) := by
  intro m
  induction m with
  | zero => intro r; exact ⟨⟨by simp [linked], by simp⟩, by simp [linked]⟩
  | succ m ih =>
    intro r
    have drop : ∀ {T : List (Node K × Node K × Node K)} {r r' : List (Node K)}, Within T r r' → Within T r [] :=
      fun h => ⟨h.tri, by simp⟩
    have drops : ∀ {T : List (Node K × Node K × Node K)} {r r' : List (Node K)}, r'.length < 3 → Splits T r r' →
        Splits T r [] := fun hl h =>
      ⟨fun μ o hm => by rw [h.sum μ o hm, rs_small hm o _ hl, rs_small hm o [] (by simp)], h.pos⟩
    rw [linked]
    obtain ⟨w0, s0⟩ := slice_spec r.length r
    generalize slice r.length r = S0 at w0 s0
    dsimp only
    split
    · rename_i hl; exact ⟨drop w0, fun _ => drops hl s0⟩
    obtain ⟨w1, s1⟩ := filter_spec S0.2.length S0.2.length S0.2
    generalize filterPoints S0.2.length S0.2.length S0.2 = r1 at w1 s1
    obtain ⟨w2, s2⟩ := slice_spec r1.length r1
    generalize slice r1.length r1 = S1 at w2 s2
    have w01 := (w0.trans w1).trans w2
    have s01 := (s0.trans s1).trans s2
    rw [List.append_nil] at w01 s01
    split
    · rename_i hl; exact ⟨drop w01, fun _ => drops hl s01⟩
    obtain ⟨w3, s3⟩ := filter_spec S1.2.length S1.2.length S1.2
    generalize filterPoints S1.2.length S1.2.length S1.2 = f1 at w3 s3
    obtain ⟨w4, s4⟩ := cure_spec f1.length f1.length f1
    generalize cure f1.length f1.length f1 = cu at w4 s4
    obtain ⟨w5, s5⟩ := filter_spec cu.2.length cu.2.length cu.2
    generalize filterPoints cu.2.length cu.2.length cu.2 = r2 at w5 s5
    obtain ⟨w6, s6⟩ := slice_spec r2.length r2
    generalize slice r2.length r2 = S2 at w6 s6
    have wt : Within (S0.1 ++ S1.1 ++ cu.1 ++ S2.1) r S2.2 := by
      have := (((w01.trans w3).trans w4).trans w5).trans w6
      simpa only [List.append_nil] using this
    have st : cu.1.isEmpty = true → Splits (S0.1 ++ S1.1 ++ cu.1 ++ S2.1) r S2.2 := fun hc => by
      have := (((s01.trans s3).trans (s4 hc)).trans s5).trans s6
      rw [List.isEmpty_iff] at hc
      simpa only [hc, List.append_nil] using this
    split
    · rename_i hl; exact ⟨drop wt, fun hc => drops hl (st hc)⟩
    split
    · exact ⟨drop wt, by simp⟩
    · rename_i ra rc hd
      obtain ⟨⟨wa, wc⟩, hs⟩ := findDiagonal_spec _ _ _ _ hd
      obtain ⟨wfa, sfa⟩ := filter_spec ra.length 1 ra
      obtain ⟨wfc, sfc⟩ := filter_spec rc.length 1 rc
      obtain ⟨wqa, sqa⟩ := ih (filterPoints ra.length 1 ra)
      obtain ⟨wqc, sqc⟩ := ih (filterPoints rc.length 1 rc)
      have wA := (wt.trans (wa.trans wfa)).trans wqa
      have wC := (wt.trans (wc.trans wfc)).trans wqc
      dsimp only
      refine ⟨⟨fun t ht => ?_, by simp⟩, fun hc => ?_⟩
      · rcases List.mem_append.1 ht with ht | ht
        · exact wA.tri t (by simpa using ht)
        · exact wC.tri t (List.mem_append_right _ ht)
      · rw [Bool.and_eq_true, Bool.and_eq_true] at hc
        obtain ⟨⟨hc0, hca⟩, hcc⟩ := hc
        have S := st hc0
        refine ⟨fun μ o hm => ?_, fun t ht => ?_⟩
        · rw [S.sum μ o hm, hs μ o hm, sfa.sum μ o hm, sfc.sum μ o hm, (sqa hca).sum μ o hm, (sqc hcc).sum μ o hm]
          simp only [ts_append]
          have : rs μ o [] = 0 := rfl
          have h0 : ts μ [] = 0 := rfl
          rw [this, h0]; ring
        · rcases List.mem_append.1 ht with ht | ht
          · rcases List.mem_append.1 ht with ht | ht
            exacts [S.pos t ht, (sqa hca).pos t ht]
          · exact (sqc hcc).pos t ht

end Verif.Earcut
