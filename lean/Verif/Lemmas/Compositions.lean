import Verif.Model.GrundMoeller
import Mathlib.Data.List.Chain
import Mathlib.Data.List.Range
import Mathlib.Data.Nat.Choose.Sum
import Mathlib.Algebra.BigOperators.Intervals
/-!
The loop on `comp_next` goes through all compositions, each once.
-/
namespace Verif.Lemmas.Compositions
open Verif Verif.GrundMoeller

/-- The compositions of `n` into `k + 1` parts, in the order of `comp_next`. -/
def comps : ℕ → ℕ → List (List ℕ)
  | 0, n => [[n]]
  | k + 1, n => (List.range' 0 (n + 1)).flatMap fun c => (comps k (n - c)).map (· ++ [c])

/-- The step of `comp_next`. -/
def Nxt (x y : List ℕ) : Prop :=
  ∃ p t b rest, x = List.replicate p 0 ++ (t + 1) :: b :: rest ∧ y = t :: (List.replicate p 0 ++ (b + 1) :: rest)

theorem Nxt.append {x y : List ℕ} (h : Nxt x y) (c : ℕ) : Nxt (x ++ [c]) (y ++ [c]) := by
  obtain ⟨p, t, b, rest, rfl, rfl⟩ := h
  exact ⟨p, t, b, rest ++ [c], by simp, by simp⟩

theorem rep_zero (k : ℕ) (l : List ℕ) : List.replicate k 0 ++ 0 :: l = 0 :: (List.replicate k 0 ++ l) := by
  induction k with
  | zero => rfl
  | succ k ih => simp only [List.replicate_succ, List.cons_append]; rw [ih]

/-- A list of compositions from `(n, 0, …, 0)` to `(0, …, 0, n)` along the step. -/
structure Path (k n : ℕ) (l : List (List ℕ)) : Prop where
  chain : l.IsChain Nxt
  first : l.head? = some (n :: List.replicate k 0)
  last : l.getLast? = some (List.replicate k 0 ++ [n])

theorem blocks (k : ℕ) (h : ∀ n, Path k n (comps k n)) (N m c : ℕ) (e : c + m = N) :
    ((List.range' c (m + 1)).flatMap fun c' => (comps k (N - c')).map (· ++ [c'])).IsChain Nxt ∧
    ((List.range' c (m + 1)).flatMap fun c' => (comps k (N - c')).map (· ++ [c'])).head? =
      some (m :: List.replicate k 0 ++ [c]) ∧
    ((List.range' c (m + 1)).flatMap fun c' => (comps k (N - c')).map (· ++ [c'])).getLast? =
      some (List.replicate (k + 1) 0 ++ [N]) := by
  induction m generalizing c with
  | zero =>
    have hc : N - c = 0 := by omega
    have hp := h 0
    simp only [zero_add, List.range'_one, List.flatMap_cons, List.flatMap_nil, List.append_nil, hc]
    refine ⟨?_, ?_, ?_⟩
    · rw [List.isChain_map]
      exact hp.chain.imp fun x y hxy => hxy.append c
    · rw [List.head?_map, hp.first]; rfl
    · rw [List.getLast?_map, hp.last, show N = c by omega]
      simp [List.replicate_succ']
  | succ m ih =>
    obtain ⟨i1, i2, i3⟩ := ih (c + 1) (by omega)
    have hp := h (m + 1)
    rw [List.range'_succ, List.flatMap_cons, show N - c = m + 1 by omega]
    refine ⟨?_, ?_, ?_⟩
    · rw [List.isChain_append]
      refine ⟨?_, i1, ?_⟩
      · rw [List.isChain_map]
        exact hp.chain.imp fun x y hxy => hxy.append c
      · intro x hx y hy
        rw [List.getLast?_map, hp.last] at hx
        rw [i2] at hy
        simp only [Option.map_some, Option.mem_def, Option.some.injEq] at hx hy
        subst hx hy
        exact ⟨k, m, c, [], by simp, by simp⟩
    · rw [List.head?_append, List.head?_map, hp.first]; rfl
    · rw [List.getLast?_append, i3]; rfl

theorem path (k n : ℕ) : Path k n (comps k n) := by
  induction k generalizing n with
  | zero => exact ⟨by simp [comps], rfl, rfl⟩
  | succ k ih =>
    obtain ⟨h1, h2, h3⟩ := blocks k ih n n 0 (by omega)
    exact ⟨h1, by rw [comps, h2]; simp [List.replicate_succ'], h3⟩

theorem mem_comps (k n : ℕ) (x : List ℕ) : x ∈ comps k n ↔ x.length = k + 1 ∧ x.sum = n := by
  induction k generalizing n x with
  | zero =>
    simp only [comps, List.mem_singleton, zero_add]
    constructor
    · rintro rfl; simp
    · rintro ⟨h1, h2⟩
      obtain ⟨a, rfl⟩ := List.length_eq_one_iff.1 h1
      simpa using h2
  | succ k ih =>
    simp only [comps, List.mem_flatMap, List.mem_range'_1, List.mem_map, ih]
    constructor
    · rintro ⟨c, hc, y, ⟨h1, h2⟩, rfl⟩
      constructor
      · simp [h1]
      · simp only [List.sum_append, List.sum_singleton]; omega
    · rintro ⟨h1, h2⟩
      have hne : x ≠ [] := by rintro rfl; simp at h1
      have e := List.dropLast_append_getLast hne
      have hs : x.dropLast.sum + x.getLast hne = n := by
        rw [← h2]; conv_rhs => rw [← e]
        simp
      exact ⟨x.getLast hne, by omega, x.dropLast, ⟨by simp [h1], by omega⟩, e⟩

theorem nodup_comps (k n : ℕ) : (comps k n).Nodup := by
  induction k generalizing n with
  | zero => simp [comps]
  | succ k ih =>
    rw [comps, List.nodup_flatMap]
    refine ⟨fun c _ => (ih _).map (fun a b h => by simpa using h), ?_⟩
    refine (List.nodup_range' (s := 0) (n := n + 1)).imp ?_
    intro a b hab x hx hy
    simp only [List.mem_map] at hx hy
    obtain ⟨y, _, rfl⟩ := hx
    obtain ⟨z, _, hz⟩ := hy
    have := congrArg List.getLast? hz
    simp at this
    exact hab this.symm

theorem hockey (n k : ℕ) : ∑ a ∈ Finset.range (n + 1), (a + k).choose k = (n + (k + 1)).choose (k + 1) := by
  induction n with
  | zero => simp
  | succ n ih =>
    rw [Finset.sum_range_succ, ih, show n + 1 + (k + 1) = (n + (k + 1)) + 1 by omega, Nat.choose_succ_succ,
      show n + 1 + k = n + (k + 1) by omega, add_comm]

theorem length_comps (k n : ℕ) : (comps k n).length = (n + k).choose k := by
  induction k generalizing n with
  | zero => simp [comps]
  | succ k ih =>
    rw [comps, List.length_flatMap]
    simp only [List.length_map, ih]
    rw [← List.range_eq_range']
    have e : ((List.range (n + 1)).map fun a => (n - a + k).choose k).sum =
        ∑ a ∈ Finset.range (n + 1), (n - a + k).choose k := rfl
    rw [e, ← hockey n k, ← Finset.sum_range_reflect]
    exact Finset.sum_congr rfl fun a ha => by
      have := Finset.mem_range.1 ha
      rw [show n - (n + 1 - 1 - a) = a by omega]

/-- The invariant of the calls of `comp_next`. -/
structure Inv (n : ℕ) (σ : St) : Prop where
  big : 1 < σ.t → ∃ t rest, σ.a = (t + 1) :: rest
  small : σ.t ≤ 1 → ∃ t rest, σ.a = List.replicate σ.h 0 ++ (t + 1) :: rest

theorem zeros_unique {p q t u : ℕ} {l m : List ℕ}
    (h : List.replicate p 0 ++ (t + 1) :: l = List.replicate q 0 ++ (u + 1) :: m) : p = q := by
  induction p generalizing q with
  | zero =>
    cases q with
    | zero => rfl
    | succ q => simp [List.replicate_succ] at h
  | succ p ih =>
    cases q with
    | zero => simp [List.replicate_succ] at h
    | succ q =>
      simp only [List.replicate_succ, List.cons_append, List.cons.injEq, true_and] at h
      rw [ih h]

theorem step {n k : ℕ} {σ : St} {y : List ℕ} (hm : σ.more = true) (hi : Inv n σ) (hn : Nxt σ.a y) :
    ∃ h t, compNext n k σ = .ok ⟨y, y[k - 1]? != some n, h, t⟩ ∧ Inv n ⟨y, y[k - 1]? != some n, h, t⟩ := by
  obtain ⟨p, t, b, rest, hx, rfl⟩ := hn
  have hp : (if 1 < σ.t then 0 else σ.h) = p := by
    split
    · rename_i h
      obtain ⟨u, r, hu⟩ := hi.big h
      rw [hx] at hu
      exact zeros_unique (p := 0) (q := p) (by simpa using hu.symm)
    · rename_i h
      obtain ⟨u, r, hu⟩ := hi.small (by omega)
      rw [hx] at hu
      exact (zeros_unique hu).symm
  refine ⟨p + 1, t + 1, ?_, ?_⟩
  · have e1 : σ.a[p]? = some (t + 1) := by rw [hx]; simp
    have e2 : σ.a[p + 1]? = some b := by rw [hx]; simp
    have e3 : ((σ.a.set p 0).set 0 t).set (p + 1) (b + 1) = t :: (List.replicate p 0 ++ (b + 1) :: rest) := by
      rw [hx]
      have : (List.replicate p 0 ++ (t + 1) :: b :: rest).set p 0 = 0 :: (List.replicate p 0 ++ b :: rest) := by
        rw [List.set_append_right _ _ (by simp), ← rep_zero]; simp
      rw [this, List.set_cons_zero, List.set_cons_succ, List.set_append_right _ _ (by simp)]
      simp
    unfold compNext
    simp only [hm, if_true, hp, Nat.add_sub_cancel, e1, e2, e3]
  · constructor
    · intro h
      have h : 1 < t + 1 := h
      obtain ⟨u, rfl⟩ : ∃ u, t = u + 1 := ⟨t - 1, by omega⟩
      exact ⟨u, _, rfl⟩
    · intro h
      have h : t + 1 ≤ 1 := h
      have ht : t = 0 := by omega
      subst ht
      exact ⟨b, rest, by simp [List.replicate_succ]⟩

theorem loop {n k room : ℕ} {σ : St} (l : List (List ℕ)) (x : List ℕ) (hm : σ.more = true) (hi : Inv n σ)
    (hx : σ.a = x) (hc : (x :: l).IsChain Nxt) (hl : l ≠ [])
    (hmem : ∀ y ∈ x :: l, y.length = k + 1 ∧ y.sum = n)
    (hlast : (x :: l).getLast? = some (List.replicate k 0 ++ [n])) (hr : l.length ≤ room) :
    betaLoop n (k + 1) room σ = .ok l := by
  induction l generalizing σ x room with
  | nil => exact absurd rfl hl
  | cons y l ih =>
    obtain ⟨room, rfl⟩ : ∃ r, room = r + 1 := ⟨room - 1, by simp at hr; omega⟩
    rw [List.isChain_cons_cons] at hc
    obtain ⟨h, t, e, hi'⟩ := step (n := n) (k := k + 1) hm hi (hx ▸ hc.1)
    rw [betaLoop, e, Outcome.bind_ok]
    rw [Nat.add_sub_cancel] at e hi' ⊢
    cases l with
    | nil =>
      have : y = List.replicate k 0 ++ [n] := by simpa using hlast
      have e2 : (y[k]? != some n) = false := by rw [this]; simp
      simp only [e2, Bool.false_eq_true, if_false]
    | cons z l =>
      have hnl : (y[k]? != some n) = true := by
        have hz := (List.isChain_cons_cons.1 hc.2).1
        obtain ⟨p, u, b, rest, hy, -⟩ := hz
        have hm' := hmem y (by simp)
        simp only [bne_iff_ne, ne_eq]
        intro hk
        have hk' : n ∈ b :: rest := by
          have hlen : k + 1 = p + (rest.length + 2) := by
            rw [← hm'.1, hy]; simp
          rw [hy, List.getElem?_append_right (by simp; omega)] at hk
          simp only [List.length_replicate] at hk
          rw [show k - p = (rest.length) + 1 by omega, List.getElem?_cons_succ] at hk
          exact List.mem_of_getElem? hk
        have h1 := List.single_le_sum (l := b :: rest) (fun _ _ => Nat.zero_le _) n hk'
        have h2 := hm'.2
        rw [hy] at h2
        simp at h1 h2
        omega
      simp only [hnl, if_true]
      rw [hnl] at hi'
      rw [ih (σ := ⟨y, true, h, t⟩) y rfl hi' rfl hc.2 (by simp) (fun w hw => hmem w (by simp at hw ⊢; tauto))
        (by rw [← hlast]; simp [List.getLast?_cons_cons]) (by simp at hr ⊢; omega), Outcome.bind_ok]

/-- The loop goes through the compositions in order. -/
theorem betaLoop_ok (n k room : ℕ) (hr : (comps k n).length ≤ room) :
    betaLoop n (k + 1) room ⟨[], false, 0, 0⟩ = .ok (comps k n) := by
  have hp := path k n
  cases hc : comps k n with
  | nil => rw [hc] at hp; simpa using hp.first
  | cons x l =>
    rw [hc] at hp hr
    have hx : x = n :: List.replicate k 0 := by simpa using hp.first
    obtain ⟨room, rfl⟩ : ∃ r, room = r + 1 := ⟨room - 1, by simp at hr; omega⟩
    have hmem : ∀ y ∈ x :: l, y.length = k + 1 ∧ y.sum = n := fun y hy => (mem_comps k n y).1 (hc ▸ hy)
    have e : compNext n (k + 1) ⟨[], false, 0, 0⟩ = .ok ⟨x, x[k]? != some n, 0, n⟩ := by
      rw [hx]; simp [compNext]
    rw [betaLoop, e, Outcome.bind_ok]
    cases l with
    | nil =>
      have : x = List.replicate k 0 ++ [n] := by simpa using hp.last
      have e2 : (x[k]? != some n) = false := by rw [this]; simp
      simp only [e2, Bool.false_eq_true, if_false]
    | cons y l =>
      have hn : 0 < n := by
        rcases Nat.eq_zero_or_pos n with rfl | h
        · exfalso
          obtain ⟨p, u, b, rest, hy, -⟩ := (List.isChain_cons_cons.1 hp.chain).1
          have := (hmem x (by simp)).2
          rw [hy] at this
          simp at this
        · exact h
      have hinv : Inv n ⟨x, true, 0, n⟩ := by
        obtain ⟨m, rfl⟩ : ∃ m, n = m + 1 := ⟨n - 1, by omega⟩
        exact ⟨fun _ => ⟨m, _, hx⟩, fun _ => ⟨m, _, hx⟩⟩
      have hnl : (x[k]? != some n) = true := by
        rw [hx]
        cases k with
        | zero =>
          have := hmem y (by simp)
          have hx' := hmem x (by simp)
          obtain ⟨p, u, b, rest, hy, -⟩ := (List.isChain_cons_cons.1 hp.chain).1
          rw [hx] at hy
          have := congrArg List.length hy
          simp at this
          omega
        | succ k => simp; omega
      simp only [hnl, if_true]
      rw [loop (σ := ⟨x, true, 0, n⟩) (y :: l) x rfl hinv rfl hp.chain (by simp) hmem hp.last
        (by simp at hr ⊢; omega), Outcome.bind_ok]

end Verif.Lemmas.Compositions
