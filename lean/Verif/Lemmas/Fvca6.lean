import Verif.Spec.Fvca6
/-! Lemmas for C32. -/
namespace Verif.Fvca6
open Spec.Fvca6
variable {K : Type}

theorem getNat_nat (n : Nat) (h : n < 2 ^ 64) (ts : List (Tok K)) : getNat (.int (n : Nat) :: ts) = .ok (n, ts) := by
  simp only [getNat]
  congr 2
  have h' : n < 18446744073709551616 := h
  omega

theorem getNat_count (n : Nat) (h : n < 2 ^ 64) (ts : List (Tok K)) : getNat (count n :: ts) = .ok (n, ts) :=
  getNat_nat n h ts

theorem getNat_idx (n : Nat) (h : n + 1 < 2 ^ 64) (ts : List (Tok K)) : getNat (idx n :: ts) = .ok (n + 1, ts) :=
  getNat_nat (n + 1) h ts

theorem pred64_succ (n : Nat) (h : n + 1 < 2 ^ 64) : pred64 (n + 1) = n := by
  have h' : n + 1 < 18446744073709551616 := h
  unfold pred64
  omega

theorem entries_ok (l : List Nat) (h : ∀ i ∈ l, i + 1 < 2 ^ 64) (ts : List (Tok K)) :
    entries l.length (l.map idx ++ ts) = .ok (l, ts) := by
  induction l with
  | nil => rfl
  | cons i l ih =>
    have hi := h i List.mem_cons_self
    simp only [List.length_cons, List.map_cons, List.cons_append, entries, getNat_idx i hi, Outcome.bind_ok,
      ih fun j hj => h j (List.mem_cons_of_mem _ hj), pred64_succ i hi]

theorem lines_ok (l : List (List Nat)) (h : ∀ r ∈ l, r.length < 2 ^ 64 ∧ ∀ i ∈ r, i + 1 < 2 ^ 64)
    (ts : List (Tok K)) : lines l.length (l.flatMap row ++ ts) = .ok (l, ts) := by
  induction l with
  | nil => rfl
  | cons r l ih =>
    have hr := h r List.mem_cons_self
    simp only [List.length_cons, List.flatMap_cons, row, List.cons_append, List.append_assoc, lines, line,
      getNat_count _ hr.1, Outcome.bind_ok, entries_ok r hr.2]
    have := ih fun r' hr' => h r' (List.mem_cons_of_mem _ hr')
    rw [this, Outcome.bind_ok]

theorem points_ok (l : List (K × K × K)) (ts : List (Tok K)) :
    points l.length ((l.flatMap fun p => [Tok.coord p.1, .coord p.2.1, .coord p.2.2]) ++ ts) = .ok (l, ts) := by
  induction l with
  | nil => rfl
  | cons p l ih =>
    simp only [List.length_cons, List.flatMap_cons, List.cons_append, List.nil_append, points,
      getCoord, Outcome.bind_ok, ih]

theorem controls_ok (l : List (Int × Int)) (ts : List (Tok K)) :
    controls l.length ((l.flatMap fun c => [Tok.int c.1, .int c.2]) ++ ts) = .ok ts := by
  induction l with
  | nil => rfl
  | cons p l ih =>
    simp only [List.length_cons, List.flatMap_cons, List.cons_append, List.nil_append, controls,
      skipInt, Outcome.bind_ok, ih]

theorem edges_ok (l : List (Nat × Nat)) (h : ∀ e ∈ l, e.1 + 1 < 2 ^ 64 ∧ e.2 + 1 < 2 ^ 64) (ts : List (Tok K)) :
    edges l.length ((l.flatMap fun e => [idx e.1, idx e.2]) ++ ts) =
      .ok (l.map fun e => [min e.1 e.2 + 1, max e.1 e.2 + 1], ts) := by
  induction l with
  | nil => rfl
  | cons e l ih =>
    have he := h e List.mem_cons_self
    simp only [List.length_cons, List.flatMap_cons, List.cons_append, List.nil_append, edges,
      getNat_idx _ he.1, getNat_idx _ he.2, Outcome.bind_ok, ih fun j hj => h j (List.mem_cons_of_mem _ hj),
      List.map_cons]
    congr 3
    by_cases hc : e.1 + 1 > e.2 + 1
    · rw [if_pos hc, Nat.min_eq_right (by omega), Nat.max_eq_left (by omega)]
    · rw [if_neg hc, Nat.min_eq_left (by omega), Nat.max_eq_right (by omega)]

theorem section_table (s : String) (l : List (List Nat)) (h : Fits l) (ts : List (Tok K)) :
    section_ s lines (table s l ++ ts) = .ok (some (l, ts)) := by
  simp only [section_, table, List.cons_append, expect, if_true, getNat_count _ h.1, Outcome.bind_ok,
    lines_ok l h.2]

theorem readToks_ok (m : Mesh6 K) (h : Fits6 m) (rest : List (Tok K)) :
    readToks (body m ++ rest) = .ok (some ⟨m.points, m.v2f, m.v2v, m.f2e, m.f2v,
      m.edges.map fun e => [min e.1 e.2 + 1, max e.1 e.2 + 1]⟩) := by
  unfold readToks body
  simp only [List.append_assoc]
  have e1 : ∀ ts : List (Tok K), section_ "Vertices" points
      ((.word "Vertices" :: count m.points.length ::
        m.points.flatMap fun p => [.coord p.1, .coord p.2.1, .coord p.2.2]) ++ ts) = .ok (some (m.points, ts)) := by
    intro ts
    simp only [section_, List.cons_append, expect, if_true, getNat_count _ h.points, Outcome.bind_ok, points_ok]
  rw [e1]
  simp only [andThen, Outcome.bind_ok, section_table _ _ h.v2f, section_table _ _ h.v2v, section_table _ _ h.f2e,
    section_table _ _ h.f2v]
  simp only [List.cons_append, expect, if_true, section_, getNat_count _ h.controls, Outcome.bind_ok, controls_ok,
    getNat_count _ h.edges, edges_ok _ h.edge]

end Verif.Fvca6
