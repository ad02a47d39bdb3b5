import Verif.Spec.HexMesh
import Verif.Lemmas.Sort
import Mathlib.Data.List.Nodup
import Mathlib.Data.List.ProdSigma
import Mathlib.Algebra.BigOperators.Group.List.Basic
import Mathlib.Tactic.Ring
import Mathlib.Tactic.Linarith
/-! Lemmas for C27 and C28: the recursion over the tiles. -/
namespace Verif.HexMesh
open Spec.HexMesh

theorem sides_eq (p : Poly) : sides p = ring p := by
  apply List.ext_getElem
  · simp [sides, ring]; omega
  · intro i h1 h2
    simp only [sides, List.length_map, List.length_range] at h1
    simp only [sides, ring, List.getElem_map, List.getElem_range, List.getElem_zip]
    congr 1
    · simp [List.getD_eq_getElem?_getD, h1]
    · by_cases hi : i + 1 < p.length
      · rw [Nat.mod_eq_of_lt hi, List.getElem_append_left (by simp; omega)]
        simp [List.getD_eq_getElem?_getD, hi]
      · have : i + 1 = p.length := by omega
        have e : (i + 1) % p.length = 0 := by rw [this, Nat.mod_self]
        rw [List.getElem_append_right (by simp; omega), e]
        simp [List.getD_eq_getElem?_getD, show 0 < p.length by omega, show i - (p.length - 1) = 0 by omega]

theorem ring_shift (bx bY : Nat) (p : Poly) :
    ring (p.map (shift bx bY)) = (ring p).map fun s => (shift bx bY s.1, shift bx bY s.2) := by
  unfold ring
  rw [← List.map_tail, ← List.map_take, ← List.map_append, List.zip_map]
  rfl

/-- The tiles of a block of `2^k` by `2^k` tiles, in the order of the recursion. -/
def tilesIn : Nat → Nat → Nat → List (Nat × Nat)
  | 0, x, y => [(x, y)]
  | k + 1, x, y => tilesIn k x y ++ tilesIn k (x + 2 ^ k) y ++ tilesIn k x (y + 2 ^ k) ++ tilesIn k (x + 2 ^ k) (y + 2 ^ k)

theorem mem_tilesIn (k x y : Nat) (t : Nat × Nat) :
    t ∈ tilesIn k x y ↔ x ≤ t.1 ∧ t.1 < x + 2 ^ k ∧ y ≤ t.2 ∧ t.2 < y + 2 ^ k := by
  induction k generalizing x y with
  | zero =>
    obtain ⟨a, b⟩ := t
    simp only [tilesIn, List.mem_singleton, Prod.mk.injEq, Nat.pow_zero]
    omega
  | succ k ih =>
    simp only [tilesIn, List.mem_append, ih, Nat.pow_succ]
    have : 0 < 2 ^ k := Nat.two_pow_pos k
    generalize 2 ^ k = n at *
    omega

theorem tilesIn_nodup (k x y : Nat) : (tilesIn k x y).Nodup := by
  induction k generalizing x y with
  | zero => simp [tilesIn]
  | succ k ih =>
    have h0 : 0 < 2 ^ k := Nat.two_pow_pos k
    have hd : ∀ x y x' y', (x + 2 ^ k ≤ x' ∨ x' + 2 ^ k ≤ x ∨ y + 2 ^ k ≤ y' ∨ y' + 2 ^ k ≤ y) →
        ∀ t ∈ tilesIn k x y, t ∉ tilesIn k x' y' := by
      intro x y x' y' h t ht ht'
      rw [mem_tilesIn] at ht ht'
      omega
    simp only [tilesIn]
    refine List.nodup_append.2 ⟨List.nodup_append.2 ⟨List.nodup_append.2 ⟨ih _ _, ih _ _, ?_⟩, ih _ _, ?_⟩, ih _ _, ?_⟩
    · intro a ha b hb e
      subst e
      exact hd _ _ _ _ (by omega) a ha hb
    · intro a ha b hb e
      subst e
      rcases List.mem_append.1 ha with h | h
      · exact hd _ _ _ _ (by omega) a h hb
      · exact hd _ _ _ _ (by omega) a h hb
    · intro a ha b hb e
      subst e
      rcases List.mem_append.1 ha with h | h
      · rcases List.mem_append.1 h with h | h
        · exact hd _ _ _ _ (by omega) a h hb
        · exact hd _ _ _ _ (by omega) a h hb
      · exact hd _ _ _ _ (by omega) a h hb

theorem mem_grid (n : Nat) (t : Nat × Nat) : t ∈ grid n ↔ t.1 < n ∧ t.2 < n := by
  obtain ⟨a, b⟩ := t
  simp only [grid, List.mem_flatMap, List.mem_range, List.mem_map, Prod.mk.injEq]
  constructor
  · rintro ⟨y, hy, x, hx, rfl, rfl⟩; exact ⟨hx, hy⟩
  · rintro ⟨h1, h2⟩; exact ⟨b, h2, a, h1, rfl, rfl⟩

theorem grid_nodup (n : Nat) : (grid n).Nodup := by
  unfold grid
  rw [List.nodup_flatMap]
  refine ⟨fun y _ => (List.nodup_range).map fun a b h => by simpa using h, ?_⟩
  refine (List.nodup_range (n := n)).imp ?_
  intro a b hab
  simp only [Function.onFun]
  intro t ht ht'
  obtain ⟨x, _, rfl⟩ := List.mem_map.1 ht
  obtain ⟨x', _, e⟩ := List.mem_map.1 ht'
  simp only [Prod.mk.injEq] at e
  exact hab e.2.symm

theorem tilesIn_grid (k : Nat) : (tilesIn k 0 0).Perm (grid (2 ^ k)) := by
  rw [List.perm_ext_iff_of_nodup (tilesIn_nodup _ _ _) (grid_nodup _)]
  intro t
  rw [mem_tilesIn, mem_grid]
  omega

/-- Polygons of a tile of an `n` by `n` grid. -/
def tilePolys (n : Nat) (t : Nat × Nat) : List Poly :=
  (localPolys (t.2 == 0) (t.2 + 1 == n) (t.1 == 0) (t.1 + 1 == n)).map fun p => p.map (shift (4 * t.1) (4 * t.2))

/-- Boundary edges of a tile. -/
def tileBnd (n : Nat) (t : Nat × Nat) (s : Side) : List Edge :=
  (localBnd (t.2 == 0) (t.2 + 1 == n) (t.1 == 0) (t.1 + 1 == n) s).map fun e =>
    (shift (4 * t.1) (4 * t.2) e.1, shift (4 * t.1) (4 * t.2) e.2)

/-- What the recursion adds for a list of tiles. -/
def addTiles (n : Nat) (hm : HM) (ts : List (Nat × Nat)) : HM :=
  updateGeometry hm (ts.flatMap (tilePolys n)) fun s => ts.flatMap fun t => tileBnd n t s

theorem updateGeometry_append (hm : HM) (p q : List Poly) (b c : Side → List Edge) :
    updateGeometry (updateGeometry hm p b) q c = updateGeometry hm (p ++ q) fun s => b s ++ c s := by
  simp [updateGeometry, List.append_assoc]

theorem addTiles_append (n : Nat) (hm : HM) (l l' : List (Nat × Nat)) :
    addTiles n (addTiles n hm l) l' = addTiles n hm (l ++ l') := by
  simp only [addTiles, updateGeometry_append, List.flatMap_append]

theorem tile_eq (n : Nat) (hm : HM) (hc : hm.coordMax = 4 * n) (x y : Nat) :
    tile hm (4 * x) (4 * x + 4) (4 * y) (4 * y + 4) = addTiles n hm [(x, y)] := by
  have h1 : ∀ z, (4 * z == 0) = (z == 0) := by
    intro z; rw [Bool.eq_iff_iff]; simp only [beq_iff_eq]; omega
  have h2 : ∀ z, (4 * z + 4 == 4 * n) = (z + 1 == n) := by
    intro z; rw [Bool.eq_iff_iff]; simp only [beq_iff_eq]; omega
  simp only [tile, hc, h1, h2, addTiles, List.flatMap_cons, List.flatMap_nil, List.append_nil]
  rfl

theorem coordMax_addTiles (n : Nat) (hm : HM) (l : List (Nat × Nat)) :
    (addTiles n hm l).coordMax = hm.coordMax := rfl

theorem work_ok (n : Nat) (k : Nat) (hn : 4 * n < W) (fuel : Nat) (hf : k < fuel) (hm : HM) (hc : hm.coordMax = 4 * n)
    (x y : Nat) (hx : x + 2 ^ k ≤ n) (hy : y + 2 ^ k ≤ n) (hn2 : 8 * n ≤ W) :
    work fuel hm (4 * x) (4 * x + 4 * 2 ^ k) (4 * y) (4 * y + 4 * 2 ^ k) = .ok (addTiles n hm (tilesIn k x y)) := by
  induction k generalizing fuel hm x y with
  | zero =>
    obtain ⟨fuel, rfl⟩ : ∃ f, fuel = f + 1 := ⟨fuel - 1, by omega⟩
    have hw : ∀ z, z + 1 ≤ n → (4 * z + 4 + W - 4 * z) % W = 4 := by
      intro z hz
      rw [show 4 * z + 4 + W - 4 * z = 4 + W by omega, Nat.add_mod_right]; rfl
    simp only [Nat.pow_zero, Nat.mul_one] at hx hy ⊢
    rw [work, hw x hx, hw y hy, if_neg (by simp), if_pos (by simp), tile_eq n hm hc]
    rfl
  | succ k ih =>
    obtain ⟨fuel, rfl⟩ : ∃ f, fuel = f + 1 := ⟨fuel - 1, by omega⟩
    have hp : 0 < 2 ^ k := Nat.two_pow_pos k
    rw [Nat.pow_succ] at hx hy ⊢
    have hw : ∀ z, z + 2 ^ k * 2 ≤ n → (4 * z + 4 * (2 ^ k * 2) + W - 4 * z) % W = 4 * (2 ^ k * 2) := by
      intro z hz
      rw [show 4 * z + 4 * (2 ^ k * 2) + W - 4 * z = 4 * (2 ^ k * 2) + W by omega, Nat.add_mod_right,
        Nat.mod_eq_of_lt (by omega)]
    have hm2 : ∀ z, z + 2 ^ k * 2 ≤ n → ((4 * z + 4 * (2 ^ k * 2) + 4 * z) % W) / 2 = 4 * (z + 2 ^ k) := by
      intro z hz
      rw [Nat.mod_eq_of_lt (by omega)]
      omega
    have ha : ∀ z, 4 * (z + 2 ^ k) = 4 * z + 4 * 2 ^ k := by intro z; ring
    have hb : ∀ z, 4 * z + 4 * (2 ^ k * 2) = 4 * (z + 2 ^ k) + 4 * 2 ^ k := by intro z; ring
    rw [work, hw x hx, hw y hy, if_neg (by simp), if_neg (by omega)]
    simp only [hm2 x hx, hm2 y hy]
    conv_lhs =>
      arg 1
      rw [ha x, ha y, ih fuel (by omega) hm hc x y (by omega) (by omega)]
    rw [Outcome.bind_ok]
    conv_lhs =>
      arg 1
      rw [ha y, hb x, ih fuel (by omega) (addTiles n hm (tilesIn k x y)) hc (x + 2 ^ k) y (by omega) (by omega)]
    rw [Outcome.bind_ok]
    conv_lhs =>
      arg 1
      rw [ha x, hb y, ih fuel (by omega) (addTiles n (addTiles n hm (tilesIn k x y)) (tilesIn k (x + 2 ^ k) y)) hc x (y + 2 ^ k) (by omega) (by omega)]
    rw [Outcome.bind_ok, hb x, hb y, ih fuel (by omega) (addTiles n (addTiles n (addTiles n hm (tilesIn k x y)) (tilesIn k (x + 2 ^ k) y))
      (tilesIn k x (y + 2 ^ k))) hc (x + 2 ^ k) (y + 2 ^ k) (by omega) (by omega)]
    simp only [addTiles_append, tilesIn, List.append_assoc]

theorem ipow_two (e : Nat) (h : e < 64) : ipow 2 e = 2 ^ e := by
  induction e with
  | zero => rfl
  | succ e ih =>
    rw [ipow, ih (by omega), ← Nat.pow_succ, Nat.mod_eq_of_lt]
    have : 2 ^ (e + 1) ≤ 2 ^ 63 := Nat.pow_le_pow_right (by decide) (by omega)
    have h63 : (2 : Nat) ^ 63 < W := by decide
    omega

theorem ipow_two_zero (e : Nat) (h : 64 ≤ e) : ipow 2 e = 0 := by
  induction e with
  | zero => omega
  | succ e ih =>
    rw [ipow]
    by_cases h' : 64 ≤ e
    · rw [ih h']; rfl
    · have : e = 63 := by omega
      subst this
      rw [ipow_two 63 (by decide)]; decide

/-- Beyond level 61 the recursion never ends. -/
theorem work_zero (fuel : Nat) (hm : HM) : work fuel hm 0 0 0 0 = .ub "stack overflow" := by
  induction fuel generalizing hm with
  | zero => rfl
  | succ fuel ih =>
    rw [work, if_neg (by simp), if_neg (by decide)]
    simp only [Nat.add_zero, Nat.zero_mod, Nat.zero_div, ih, Outcome.bind_ub]

/-- The mesh before sorting. -/
def raw (l : Nat) : HM := addTiles (2 ^ l) ⟨4 * 2 ^ l, [], [], [], fun _ => []⟩ (tilesIn l 0 0)

theorem work_level (l fuel : Nat) (hl : l ≤ 61) (hf : l < fuel) :
    ipow 2 (l + 2) = 4 * 2 ^ l ∧
    work fuel ⟨4 * 2 ^ l, [], [], [], fun _ => []⟩ 0 (4 * 2 ^ l) 0 (4 * 2 ^ l) = .ok (raw l) := by
  have hp : 2 ^ l ≤ 2 ^ 61 := Nat.pow_le_pow_right (by decide) hl
  have h61 : 8 * (2 : Nat) ^ 61 = W := by decide
  have h0 : 0 < 2 ^ l := Nat.two_pow_pos l
  refine ⟨by rw [ipow_two _ (by omega), Nat.pow_add]; omega, ?_⟩
  have := work_ok (2 ^ l) l (by omega) fuel hf ⟨4 * 2 ^ l, [], [], [], fun _ => []⟩ rfl 0 0 (by omega) (by omega)
    (by omega)
  rw [raw]
  simpa only [Nat.mul_zero, Nat.zero_add] using this

end Verif.HexMesh
