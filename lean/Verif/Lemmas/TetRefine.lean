import Verif.Spec.TetMesh
import Verif.Lemmas.TriRefine
import Mathlib.Order.Monotone.Basic
/-! Lemmas on the uniform refinement of tetrahedral meshes: the eight parts of one tetrahedron. -/
namespace Verif.TetRefine
open Verif.Spec.TetMesh
open TriRefine hiding Mesh midpoint breakEdges refine refineN inner

theorem Tet.lt_def (x y : Tet) : x < y ↔ x.a < y.a ∨ (x.a = y.a ∧ (x.b < y.b ∨ (x.b = y.b ∧
    (x.c < y.c ∨ (x.c = y.c ∧ x.d < y.d))))) := Iff.rfl

theorem Tet.ext' {x y : Tet} (h : x.a = y.a) (h' : x.b = y.b) (h'' : x.c = y.c) (h3 : x.d = y.d) : x = y := by
  cases x; cases y; simp_all

instance : LinearOrder Tet where
  le x y := ¬ y < x
  lt := (· < ·)
  le_refl x := by rw [Tet.lt_def]; omega
  le_trans x y z := by simp only [Tet.lt_def]; omega
  lt_iff_le_not_ge x y := by simp only [Tet.lt_def]; omega
  le_antisymm x y h h' := by
    simp only [Tet.lt_def] at h h'
    exact Tet.ext' (by omega) (by omega) (by omega) (by omega)
  le_total x y := by simp only [Tet.lt_def]; omega
  toDecidableLE x y := inferInstanceAs (Decidable (¬ y < x))
  toDecidableEq := inferInstance
  toDecidableLT := inferInstance

/-! ### Renaming vertices -/

def mapE (φ : Nat → Nat) (e : Edge) : Edge := ⟨φ e.a, φ e.b⟩
def mapT (φ : Nat → Nat) (t : Tri) : Tri := ⟨φ t.a, φ t.b, φ t.c⟩
def mapV (φ : Nat → Nat) (t : Tet) : Tet := ⟨φ t.a, φ t.b, φ t.c, φ t.d⟩
def mapP (φ : Nat → Nat) (p : Piece) : Piece :=
  ⟨p.edges.map (mapE φ), p.surfaces.map fun x => (mapT φ x.1, x.2), p.vols.map (mapV φ)⟩

section
variable {φ : Nat → Nat} (hφ : StrictMono φ)
include hφ

theorem insertBy_map (x : Nat) (l : List Nat) :
    Sort.insertBy (fun x y => decide (x < y)) (φ x) (l.map φ) =
      (Sort.insertBy (fun x y => decide (x < y)) x l).map φ := by
  induction l with
  | nil => rfl
  | cons y l ih =>
    simp only [List.map_cons, Sort.insertBy, hφ.lt_iff_lt]
    split
    · rw [ih, List.map_cons]
    · rfl

theorem sortBy_map (l : List Nat) :
    Sort.sortBy (fun x y => decide (x < y)) (l.map φ) = (Sort.sortBy (fun x y => decide (x < y)) l).map φ := by
  induction l with
  | nil => rfl
  | cons x l ih => rw [List.map_cons, Sort.sortBy, ih, insertBy_map hφ, Sort.sortBy]

theorem mkEdge_map (p q : Nat) : mkEdge (φ p) (φ q) = mapE φ (mkEdge p q) := by
  simp only [mkEdge, hφ.lt_iff_lt]
  split <;> rfl

theorem mkTri_map (p q r : Nat) : mkTri (φ p) (φ q) (φ r) = mapT φ (mkTri p q r) := by
  have h := sortBy_map hφ [p, q, r]
  have hl := (Sort.sortBy_perm (fun x y => decide (x < y)) [p, q, r]).length_eq
  unfold mkTri
  simp only [List.map_cons, List.map_nil] at h
  rw [h]
  match Sort.sortBy (fun x y => decide (x < y)) [p, q, r], hl with
  | [x, y, z], _ => rfl

theorem mkTet_map (p q r s : Nat) : mkTet (φ p) (φ q) (φ r) (φ s) = mapV φ (mkTet p q r s) := by
  have h := sortBy_map hφ [p, q, r, s]
  have hl := (Sort.sortBy_perm (fun x y => decide (x < y)) [p, q, r, s]).length_eq
  unfold mkTet
  simp only [List.map_cons, List.map_nil] at h
  rw [h]
  match Sort.sortBy (fun x y => decide (x < y)) [p, q, r, s], hl with
  | [w, x, y, z], _ => rfl

theorem makeTetra_map (p q r s : Nat) (b0 b1 b2 b3 : Bd) :
    makeTetra (φ p) (φ q) (φ r) (φ s) b0 b1 b2 b3 = mapP φ (makeTetra p q r s b0 b1 b2 b3) := by
  simp only [makeTetra, mapP, mkEdge_map hφ, mkTri_map hφ, mkTet_map hφ, List.map_cons, List.map_nil]

end

theorem append_map (φ : Nat → Nat) (x y : Piece) : (mapP φ x).append (mapP φ y) = mapP φ (x.append y) := by
  simp [mapP, Piece.append]

theorem concat_map (φ : Nat → Nat) (l : List Piece) : Piece.concat (l.map (mapP φ)) = mapP φ (Piece.concat l) := by
  induction l with
  | nil => rfl
  | cons x l ih =>
    change (mapP φ x).append (Piece.concat (l.map (mapP φ))) = mapP φ (x.append (Piece.concat l))
    rw [ih, append_map]

/-! ### The template: vertices 0-3, midpoints 4-9 in the order of their numbers -/

/-- A descriptor: the one of a face of the parent, or internal. -/
def pick (b0 b1 b2 b3 : Bd) : Option (Fin 4) → Bd
  | none => Bd.inner
  | some 0 => b0
  | some 1 => b1
  | some 2 => b2
  | some 3 => b3

/-- The template. -/
def tpl (b0 b1 b2 b3 : Bd) : Piece := Piece.concat (children 0 1 2 3 4 7 5 6 9 8 b0 b1 b2 b3)

def tplVols : List Tet := [⟨0, 4, 5, 6⟩, ⟨1, 4, 7, 8⟩, ⟨2, 5, 7, 9⟩, ⟨3, 6, 8, 9⟩, ⟨4, 5, 6, 8⟩, ⟨4, 5, 7, 8⟩,
  ⟨5, 6, 8, 9⟩, ⟨5, 7, 8, 9⟩]

/-- The parts of the faces of the parent. -/
def tplSub : List (Tri × Option (Fin 4)) := [
  (⟨0, 4, 5⟩, some 0), (⟨1, 4, 7⟩, some 0), (⟨2, 5, 7⟩, some 0), (⟨4, 5, 7⟩, some 0),
  (⟨0, 4, 6⟩, some 1), (⟨1, 4, 8⟩, some 1), (⟨3, 6, 8⟩, some 1), (⟨4, 6, 8⟩, some 1),
  (⟨0, 5, 6⟩, some 2), (⟨2, 5, 9⟩, some 2), (⟨3, 6, 9⟩, some 2), (⟨5, 6, 9⟩, some 2),
  (⟨1, 7, 8⟩, some 3), (⟨2, 7, 9⟩, some 3), (⟨3, 8, 9⟩, some 3), (⟨7, 8, 9⟩, some 3)]

/-- The faces inside. -/
def tplInt : List Tri := [⟨4, 5, 6⟩, ⟨4, 7, 8⟩, ⟨5, 7, 9⟩, ⟨6, 8, 9⟩, ⟨4, 5, 8⟩, ⟨5, 6, 8⟩, ⟨5, 7, 8⟩, ⟨5, 8, 9⟩]

/-- The surfaces pushed, in order. -/
def tplSurf : List (Tri × Option (Fin 4)) := [
  (⟨0, 4, 5⟩, some 0), (⟨0, 4, 6⟩, some 1), (⟨0, 5, 6⟩, some 2), (⟨4, 5, 6⟩, none),
  (⟨1, 4, 7⟩, some 0), (⟨1, 4, 8⟩, some 1), (⟨4, 7, 8⟩, none), (⟨1, 7, 8⟩, some 3),
  (⟨2, 5, 7⟩, some 0), (⟨5, 7, 9⟩, none), (⟨2, 5, 9⟩, some 2), (⟨2, 7, 9⟩, some 3),
  (⟨6, 8, 9⟩, none), (⟨3, 6, 8⟩, some 1), (⟨3, 6, 9⟩, some 2), (⟨3, 8, 9⟩, some 3),
  (⟨4, 5, 6⟩, none), (⟨4, 5, 8⟩, none), (⟨4, 6, 8⟩, some 1), (⟨5, 6, 8⟩, none),
  (⟨4, 7, 8⟩, none), (⟨4, 5, 8⟩, none), (⟨4, 5, 7⟩, some 0), (⟨5, 7, 8⟩, none),
  (⟨5, 6, 8⟩, none), (⟨5, 6, 9⟩, some 2), (⟨5, 8, 9⟩, none), (⟨6, 8, 9⟩, none),
  (⟨5, 8, 9⟩, none), (⟨5, 7, 9⟩, none), (⟨5, 7, 8⟩, none), (⟨7, 8, 9⟩, some 3)]

theorem tpl_vols (b0 b1 b2 b3 : Bd) : (tpl b0 b1 b2 b3).vols = tplVols := by rfl

theorem tpl_surf (b0 b1 b2 b3 : Bd) :
    (tpl b0 b1 b2 b3).surfaces = tplSurf.map fun x => (x.1, pick b0 b1 b2 b3 x.2) := by rfl

theorem tpl_edges (b0 b1 b2 b3 : Bd) : (tpl b0 b1 b2 b3).edges.Perm (tplVols.flatMap edges) := by
  change (tpl Bd.inner Bd.inner Bd.inner Bd.inner).edges.Perm _
  decide +kernel

theorem tplSurf_perm :
    tplSurf.Perm (tplSub ++ (tplInt.map (fun f => (f, none)) ++ tplInt.map fun f => (f, none))) := by
  decide +kernel

theorem tplVols_faces : (tplVols.flatMap faces).Perm (tplSub.map Prod.fst ++ (tplInt ++ tplInt)) := by
  decide +kernel

/-! ### The numbers of the ten vertices -/

section
variable (E : List Edge) (N : Nat)

def tab (t : Tet) : Edge := ⟨t.a, t.b⟩
def tac (t : Tet) : Edge := ⟨t.a, t.c⟩
def tad (t : Tet) : Edge := ⟨t.a, t.d⟩
def tbc (t : Tet) : Edge := ⟨t.b, t.c⟩
def tbd (t : Tet) : Edge := ⟨t.b, t.d⟩
def tcd (t : Tet) : Edge := ⟨t.c, t.d⟩

/-- Renaming of the template. -/
def num (t : Tet) : Nat → Nat
  | 0 => t.a
  | 1 => t.b
  | 2 => t.c
  | 3 => t.d
  | 4 => mp E N (tab t)
  | 5 => mp E N (tac t)
  | 6 => mp E N (tad t)
  | 7 => mp E N (tbc t)
  | 8 => mp E N (tbd t)
  | n + 9 => mp E N (tcd t) + n

/-- What is needed of a tetrahedron: increasing vertices that exist, and its edges are stored. -/
structure TetOk (t : Tet) : Prop where
  h1 : t.a < t.b
  h2 : t.b < t.c
  h3 : t.c < t.d
  h4 : t.d < N
  e : ∀ e ∈ edges t, e ∈ E

/-- The parts of a tetrahedron. -/
def parts (t : Tet) : List Tet := tplVols.map (mapV (num E N t))

/-- The new faces inside a tetrahedron. -/
def inside (t : Tet) : List Tri := tplInt.map (mapT (num E N t))

variable {E N}

namespace TetOk
variable {t : Tet} (ht : TetOk E N t)
include ht

theorem ab : tab t ∈ E := ht.e _ (by simp [edges, tab])
theorem ac : tac t ∈ E := ht.e _ (by simp [edges, tac])
theorem ad : tad t ∈ E := ht.e _ (by simp [edges, tad])
theorem bc : tbc t ∈ E := ht.e _ (by simp [edges, tbc])
theorem bd : tbd t ∈ E := ht.e _ (by simp [edges, tbd])
theorem cd : tcd t ∈ E := ht.e _ (by simp [edges, tcd])

theorem order (hs : E.Pairwise (· < ·)) : mp E N (tab t) < mp E N (tac t) ∧ mp E N (tac t) < mp E N (tad t) ∧
    mp E N (tad t) < mp E N (tbc t) ∧ mp E N (tbc t) < mp E N (tbd t) ∧ mp E N (tbd t) < mp E N (tcd t) := by
  have h1 := ht.h1
  have h2 := ht.h2
  have h3 := ht.h3
  have e1 := ix_mono E hs (tab t) (tac t) ht.ab ht.ac (.inr ⟨rfl, h2⟩)
  have e2 := ix_mono E hs (tac t) (tad t) ht.ac ht.ad (.inr ⟨rfl, h3⟩)
  have e3 := ix_mono E hs (tad t) (tbc t) ht.ad ht.bc (.inl h1)
  have e4 := ix_mono E hs (tbc t) (tbd t) ht.bc ht.bd (.inr ⟨rfl, h3⟩)
  have e5 := ix_mono E hs (tbd t) (tcd t) ht.bd ht.cd (.inl h2)
  unfold mp
  omega

theorem mono (hs : E.Pairwise (· < ·)) : StrictMono (num E N t) := by
  have h1 := ht.h1
  have h2 := ht.h2
  have h3 := ht.h3
  have h4 := ht.h4
  obtain ⟨o1, o2, o3, o4, o5⟩ := ht.order hs
  have g : N ≤ mp E N (tab t) := mp_ge _
  apply strictMono_nat_of_lt_succ
  intro n
  match n with
  | 0 => exact h1
  | 1 => exact h2
  | 2 => exact h3
  | 3 => exact lt_of_lt_of_le h4 g
  | 4 => exact o1
  | 5 => exact o2
  | 6 => exact o3
  | 7 => exact o4
  | 8 => exact o5
  | n + 9 => exact Nat.lt_succ_self _

/-- The faces of a tetrahedron can be refined as triangles. -/
theorem face {f : Tri} (hf : f ∈ faces t) : TriOk E N f := by
  have h1 := ht.h1
  have h2 := ht.h2
  have h3 := ht.h3
  have h4 := ht.h4
  simp only [faces, List.mem_cons, List.not_mem_nil, or_false] at hf
  rcases hf with rfl | rfl | rfl | rfl
  · exact ⟨h1, h2, by dsimp only; omega, ht.ab, ht.bc, ht.ac⟩
  · exact ⟨h1, by dsimp only; omega, h4, ht.ab, ht.bd, ht.ad⟩
  · exact ⟨by dsimp only; omega, h3, h4, ht.ac, ht.cd, ht.ad⟩
  · exact ⟨h2, h3, h4, ht.bc, ht.cd, ht.bd⟩

end TetOk

theorem sub_eq (t : Tet) : (tplSub.map fun x => mapT (num E N t) x.1) = (faces t).flatMap (kids E N) := by rfl

theorem parts_faces (t : Tet) :
    ((parts E N t).flatMap faces).Perm ((faces t).flatMap (kids E N) ++ (inside E N t ++ inside E N t)) := by
  have h := tplVols_faces.map (mapT (num E N t))
  rw [List.map_append, List.map_append, List.map_map] at h
  rw [← sub_eq]
  refine List.Perm.trans (.of_eq ?_) h
  rfl

/-- The surfaces pushed for one tetrahedron, given the descriptors of its faces. -/
theorem surf_perm (t : Tet) (d : Tri → Bd) :
    ((tpl (d ⟨t.a, t.b, t.c⟩) (d ⟨t.a, t.b, t.d⟩) (d ⟨t.a, t.c, t.d⟩) (d ⟨t.b, t.c, t.d⟩)).surfaces.map
      fun x => (mapT (num E N t) x.1, x.2)).Perm
    ((faces t).flatMap (fun f => (kids E N f).map fun k => (k, d f)) ++
      ((inside E N t).map (fun f => (f, Bd.inner)) ++ (inside E N t).map fun f => (f, Bd.inner))) := by
  rw [tpl_surf, List.map_map]
  refine (tplSurf_perm.map _).trans (.of_eq ?_)
  rfl

end
end Verif.TetRefine
