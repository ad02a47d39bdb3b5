import Verif.Lemmas.HexMesh
/-! Lemmas for C27 and C28: which pieces occur where, and how their sides match. -/
namespace Verif.HexMesh
open Spec.HexMesh

/-- The polygons that occur, with the function that adds them. -/
inductive Piece where
  | main | bottom | topQ | topH | triL | triU | pentaL | pentaU | hexL | hexU
  deriving DecidableEq, Repr

/-- Position of a tile in a row or column. -/
inductive Cond where
  | any | first | last | inner
  deriving DecidableEq, Repr

def Cond.ok (n x : Nat) : Cond → Prop
  | .any => x < n
  | .first => x < n ∧ x = 0
  | .last => x + 1 = n
  | .inner => x + 1 < n

instance (n x : Nat) (c : Cond) : Decidable (c.ok n x) := by cases c <;> unfold Cond.ok <;> infer_instance

namespace Piece

def all : List Piece := [.main, .bottom, .topQ, .topH, .triL, .triU, .pentaL, .pentaU, .hexL, .hexU]

theorem mem_all (p : Piece) : p ∈ all := by cases p <;> decide

theorem all_nodup : all.Nodup := by decide

def pts : Piece → Poly
  | main => [(0, 2), (1, 1), (2, 1), (3, 2), (2, 3), (1, 3)]
  | bottom => [(0, 0), (3, 0), (2, 1), (1, 1)]
  | topQ => [(0, 4), (1, 3), (2, 3), (3, 4)]
  | topH => [(0, 4), (1, 3), (2, 3), (3, 4), (2, 5), (1, 5)]
  | triL => [(0, 0), (1, 1), (0, 2)]
  | triU => [(0, 2), (1, 3), (0, 4)]
  | pentaL => [(4, 0), (4, 2), (3, 2), (2, 1), (3, 0)]
  | pentaU => [(4, 2), (4, 4), (3, 4), (2, 3), (3, 2)]
  | hexL => [(4, 0), (5, 1), (4, 2), (3, 2), (2, 1), (3, 0)]
  | hexU => [(4, 2), (5, 3), (4, 4), (3, 4), (2, 3), (3, 2)]

def cx : Piece → Cond
  | triL => .first
  | triU => .first
  | pentaL => .last
  | pentaU => .last
  | hexL => .inner
  | hexU => .inner
  | _ => .any

def cy : Piece → Cond
  | bottom => .first
  | topQ => .last
  | topH => .inner
  | _ => .any

/-- The piece occurs in the tile. -/
def ok (n : Nat) (t : Nat × Nat) (p : Piece) : Prop := p.cx.ok n t.1 ∧ p.cy.ok n t.2

instance (n : Nat) (t : Nat × Nat) (p : Piece) : Decidable (p.ok n t) := by unfold ok; infer_instance

end Piece

/-- The pieces of a tile, in the order of the code. -/
def pieces (n : Nat) (t : Nat × Nat) : List Piece := Piece.all.filter fun p => p.ok n t

/-- The polygon of a piece in a tile. -/
def place (t : Nat × Nat) (p : Piece) : Poly := p.pts.map (shift (4 * t.1) (4 * t.2))

theorem tilePolys_eq (n : Nat) (t : Nat × Nat) (h : t.1 < n ∧ t.2 < n) :
    tilePolys n t = (pieces n t).map (place t) := by
  obtain ⟨x, y⟩ := t
  simp only at h
  have ok' : ∀ p : Piece, decide (p.ok n (x, y)) =
      ((match p.cx with | .any => true | .first => decide (x = 0) | .last => decide (x + 1 = n) | .inner => ! decide (x + 1 = n)) &&
       (match p.cy with | .any => true | .first => decide (y = 0) | .last => decide (y + 1 = n) | .inner => ! decide (y + 1 = n))) := by
    intro p
    rw [Bool.eq_iff_iff, decide_eq_true_eq, Bool.and_eq_true]
    unfold Piece.ok
    have aux : ∀ (c : Cond) (z : Nat), z < n → (c.ok n z ↔ (match c with | .any => true | .first => decide (z = 0) | .last => decide (z + 1 = n) | .inner => ! decide (z + 1 = n)) = true) := by
      intro c z hz
      cases c <;> simp [Cond.ok] <;> omega
    rw [aux _ _ h.1, aux _ _ h.2]
  unfold tilePolys pieces
  simp only [ok', beq_eq_decide]
  have : (place (x, y)) = (fun p : Poly => p.map (shift (4 * x) (4 * y))) ∘ Piece.pts := rfl
  rw [this, ← List.map_map]
  congr 1
  generalize decide (x = 0) = a
  generalize decide (x + 1 = n) = b
  generalize decide (y = 0) = c
  generalize decide (y + 1 = n) = d
  revert a b c d
  decide

theorem mem_pieces (n : Nat) (t : Nat × Nat) (p : Piece) : p ∈ pieces n t ↔ p.ok n t := by
  simp [pieces, Piece.mem_all]

/-- The two tiles at `z + u` and `z + u'` cannot satisfy these conditions. -/
def bad (u u' : Nat) (c c' : Cond) : Bool :=
  (u == 1 && c == .first) || (u' == 1 && c' == .first) || (decide (u < u') && c == .last) ||
  (decide (u' < u) && c' == .last) || (u == u' && ((c == .last && c' == .inner) || (c == .inner && c' == .last)))

theorem bad_sound {n z u u' : Nat} (hu : u ≤ 1) (hu' : u' ≤ 1) {c c' : Cond} (h : bad u u' c c' = true)
    (h1 : c.ok n (z + u)) (h2 : c'.ok n (z + u')) : False := by
  simp only [bad, Bool.or_eq_true, Bool.and_eq_true, beq_iff_eq, decide_eq_true_eq] at h
  rcases h with (((⟨a, rfl⟩ | ⟨a, rfl⟩) | ⟨a, rfl⟩) | ⟨a, rfl⟩) | ⟨a, ⟨rfl, rfl⟩ | ⟨rfl, rfl⟩⟩
  · have := h1.2; omega
  · have := h2.2; omega
  · cases c' <;> simp only [Cond.ok] at h1 h2 <;> omega
  · cases c <;> simp only [Cond.ok] at h1 h2 <;> omega
  · simp only [Cond.ok] at h1 h2; omega
  · simp only [Cond.ok] at h1 h2; omega

def shifts : List (Nat × Nat) := [(0, 0), (0, 1), (1, 0)]

/-- Offsets of two tiles whose polygons have a common point. -/
theorem near {X X' a a' : Nat} (ha : a ≤ 5) (ha' : a' ≤ 5) (h : a + 4 * X = a' + 4 * X') :
    ∃ z u u', (u, u') ∈ shifts ∧ X = z + u ∧ X' = z + u' ∧ a + 4 * u = a' + 4 * u' := by
  by_cases h1 : X = X'
  · exact ⟨X, 0, 0, by simp [shifts], by omega, by omega, by omega⟩
  · by_cases h2 : X < X'
    · exact ⟨X, 0, 1, by simp [shifts], by omega, by omega, by omega⟩
    · exact ⟨X', 1, 0, by simp [shifts], by omega, by omega, by omega⟩

theorem shifts_le {u u' : Nat} (h : (u, u') ∈ shifts) : u ≤ 1 ∧ u' ≤ 1 := by
  simp only [shifts, List.mem_cons, Prod.mk.injEq, List.not_mem_nil, or_false] at h
  omega

/-- Same directed side. -/
theorem same_table : ∀ sx ∈ shifts, ∀ sy ∈ shifts, ∀ p ∈ Piece.all, ∀ q ∈ Piece.all, ∀ s ∈ ring p.pts, ∀ r ∈ ring q.pts,
    s.1.1 + 4 * sx.1 = r.1.1 + 4 * sx.2 → s.1.2 + 4 * sy.1 = r.1.2 + 4 * sy.2 →
    s.2.1 + 4 * sx.1 = r.2.1 + 4 * sx.2 → s.2.2 + 4 * sy.1 = r.2.2 + 4 * sy.2 →
    (p = q ∧ sx = (0, 0) ∧ sy = (0, 0)) ∨ bad sx.1 sx.2 p.cx q.cx = true ∨ bad sy.1 sy.2 p.cy q.cy = true := by
  decide +kernel

theorem pts_le : ∀ p ∈ Piece.all, ∀ s ∈ ring p.pts, s.1.1 ≤ 5 ∧ s.1.2 ≤ 5 ∧ s.2.1 ≤ 5 ∧ s.2.2 ≤ 5 ∧ s.1 ≠ s.2 := by
  decide +kernel

theorem ring_nodup : ∀ p ∈ Piece.all, (ring p.pts).Nodup := by decide +kernel

theorem mem_ring_place {t : Nat × Nat} {p : Piece} {s : Pt × Pt} (h : s ∈ ring (place t p)) :
    ∃ r ∈ ring p.pts, s = (shift (4 * t.1) (4 * t.2) r.1, shift (4 * t.1) (4 * t.2) r.2) := by
  rw [place, ring_shift] at h
  obtain ⟨r, hr, e⟩ := List.mem_map.1 h
  exact ⟨r, hr, e.symm⟩

/-- A directed side belongs to one piece of one tile. -/
theorem side_unique {n : Nat} {t t' : Nat × Nat} {p q : Piece} (hp : p.ok n t) (hq : q.ok n t') {s : Pt × Pt}
    (h : s ∈ ring (place t p)) (h' : s ∈ ring (place t' q)) : t = t' ∧ p = q := by
  obtain ⟨r, hr, rfl⟩ := mem_ring_place h
  obtain ⟨r', hr', e⟩ := mem_ring_place h'
  obtain ⟨b1, b2, b3, b4, -⟩ := pts_le p (Piece.mem_all p) r hr
  obtain ⟨b1', b2', b3', b4', -⟩ := pts_le q (Piece.mem_all q) r' hr'
  simp only [shift, Prod.mk.injEq] at e
  obtain ⟨⟨e1, e2⟩, e3, e4⟩ := e
  obtain ⟨zx, u, u', hu, hX, hX', f1⟩ := near b1 b1' e1
  obtain ⟨zy, v, v', hv, hY, hY', f2⟩ := near b2 b2' e2
  have := same_table (u, u') hu (v, v') hv p (Piece.mem_all p) q (Piece.mem_all q) r hr r' hr' f1 f2
    (by simp only; omega) (by simp only; omega)
  obtain ⟨ux, ux'⟩ := shifts_le hu
  obtain ⟨vy, vy'⟩ := shifts_le hv
  rcases this with ⟨rfl, hx, hy⟩ | hb | hb
  · simp only [Prod.mk.injEq] at hx hy
    exact ⟨Prod.ext (by omega) (by omega), rfl⟩
  · exact (bad_sound ux ux' hb (hX ▸ hp.1) (hX' ▸ hq.1)).elim
  · exact (bad_sound vy vy' hb (hY ▸ hp.2) (hY' ▸ hq.2)).elim

/-! ### Opposite sides -/

/-- Boundary edges: the side of the square, the directed side, the condition on the tile. -/
def bsides : List (Side × (Pt × Pt) × Cond × Cond) :=
  [(.bottom, ((0, 0), (3, 0)), .any, .first), (.bottom, ((3, 0), (4, 0)), .any, .first),
   (.top, ((3, 4), (0, 4)), .any, .last), (.top, ((4, 4), (3, 4)), .any, .last),
   (.left, ((0, 2), (0, 0)), .first, .any), (.left, ((0, 4), (0, 2)), .first, .any),
   (.right, ((4, 0), (4, 2)), .last, .any), (.right, ((4, 2), (4, 4)), .last, .any)]

/-- What is known about `c'` at `z + u'` when `z + u` is first and/or last in its row. -/
def follows (u u' : Nat) (f l : Bool) (c' : Cond) : Bool :=
  if u = u' then
    match c' with
    | .any => true
    | .first => f
    | .last => l
    | .inner => ! l
  else if u = 1 then ! f && (c' == .any || c' == .inner)
  else ! l && c' == .any

/-- The condition from the flags. -/
def Cond.flag (f l : Bool) : Cond → Bool
  | .any => true
  | .first => f
  | .last => l
  | .inner => ! l

theorem flag_iff {n x : Nat} (hx : x < n) (c : Cond) : c.ok n x ↔ c.flag (decide (x = 0)) (decide (x + 1 = n)) = true := by
  cases c <;> simp [Cond.ok, Cond.flag] <;> omega

theorem Cond.lt {n x : Nat} {c : Cond} (h : c.ok n x) : x < n := by
  cases c <;> simp only [Cond.ok] at h <;> omega

theorem follows_sound {n X u u' : Nat} (hu : (u, u') ∈ shifts) (hX : X < n) {c' : Cond}
    (h : follows u u' (decide (X = 0)) (decide (X + 1 = n)) c' = true) :
    ∃ z X', X = z + u ∧ X' = z + u' ∧ c'.ok n X' := by
  simp only [shifts, List.mem_cons, Prod.mk.injEq, List.not_mem_nil, or_false] at hu
  rcases hu with ⟨rfl, rfl⟩ | ⟨rfl, rfl⟩ | ⟨rfl, rfl⟩
  · refine ⟨X, X, rfl, rfl, ?_⟩
    rw [flag_iff hX]
    cases c' <;> simpa [follows, Cond.flag] using h
  · refine ⟨X, X + 1, rfl, rfl, ?_⟩
    simp only [follows, if_neg (show ¬ (0 = 1) by decide), Bool.and_eq_true, Bool.not_eq_true', decide_eq_false_iff_not,
      beq_iff_eq] at h
    obtain ⟨h1, rfl⟩ := h
    simp only [Cond.ok]; omega
  · simp only [follows, if_neg (show ¬ (1 = 0) by decide), if_true, Bool.and_eq_true, Bool.not_eq_true',
      decide_eq_false_iff_not, Bool.or_eq_true, beq_iff_eq] at h
    refine ⟨X - 1, X - 1, by omega, rfl, ?_⟩
    rcases h.2 with rfl | rfl <;> simp only [Cond.ok] <;> omega

/-- Every side is a boundary edge of its tile or has an opposite. -/
theorem opposite_table : ∀ p ∈ Piece.all, ∀ s ∈ ring p.pts, ∀ fx lx fy ly : Bool, p.cx.flag fx lx = true → p.cy.flag fy ly = true →
    (∃ b ∈ bsides, b.2.1 = s ∧ b.2.2.1.flag fx lx = true ∧ b.2.2.2.flag fy ly = true) ∨
    ∃ sx ∈ shifts, ∃ sy ∈ shifts, ∃ q ∈ Piece.all, ∃ r ∈ ring q.pts,
      follows sx.1 sx.2 fx lx q.cx = true ∧ follows sy.1 sy.2 fy ly q.cy = true ∧
      s.1.1 + 4 * sx.1 = r.2.1 + 4 * sx.2 ∧ s.1.2 + 4 * sy.1 = r.2.2 + 4 * sy.2 ∧
      s.2.1 + 4 * sx.1 = r.1.1 + 4 * sx.2 ∧ s.2.2 + 4 * sy.1 = r.1.2 + 4 * sy.2 := by
  decide +kernel

/-- A boundary edge is a side of a piece of its tile. -/
theorem bside_owned_table : ∀ b ∈ bsides, ∀ fx lx fy ly : Bool, b.2.2.1.flag fx lx = true → b.2.2.2.flag fy ly = true →
    ∃ p ∈ Piece.all, b.2.1 ∈ ring p.pts ∧ p.cx.flag fx lx = true ∧ p.cy.flag fy ly = true := by
  decide +kernel

/-- A boundary edge has no opposite. -/
theorem bside_alone_table : ∀ b ∈ bsides, ∀ sx ∈ shifts, ∀ sy ∈ shifts, ∀ q ∈ Piece.all, ∀ r ∈ ring q.pts,
    (b.2.1.1.1 + 4 * sx.1 = r.2.1 + 4 * sx.2 ∧ b.2.1.1.2 + 4 * sy.1 = r.2.2 + 4 * sy.2 ∧
    b.2.1.2.1 + 4 * sx.1 = r.1.1 + 4 * sx.2 ∧ b.2.1.2.2 + 4 * sy.1 = r.1.2 + 4 * sy.2) →
    bad sx.1 sx.2 b.2.2.1 q.cx = true ∨ bad sy.1 sy.2 b.2.2.2 q.cy = true := by
  decide +kernel

theorem bside_le : ∀ b ∈ bsides, b.2.1.1.1 ≤ 5 ∧ b.2.1.1.2 ≤ 5 ∧ b.2.1.2.1 ≤ 5 ∧ b.2.1.2.2 ≤ 5 := by decide

/-- A directed side moved to a tile. -/
def move (t : Nat × Nat) (s : Pt × Pt) : Pt × Pt := (shift (4 * t.1) (4 * t.2) s.1, shift (4 * t.1) (4 * t.2) s.2)

theorem ring_place (t : Nat × Nat) (p : Piece) : ring (place t p) = (ring p.pts).map (move t) := by
  rw [place, ring_shift]; rfl

/-- The reversed side. -/
def rev (s : Pt × Pt) : Pt × Pt := (s.2, s.1)

/-- A directed side on the boundary of the square. -/
def OnBnd (n : Nat) (sd : Side) (s : Pt × Pt) : Prop :=
  ∃ t : Nat × Nat, ∃ b ∈ bsides, b.1 = sd ∧ b.2.2.1.ok n t.1 ∧ b.2.2.2.ok n t.2 ∧ s = move t b.2.1

theorem opposite {n : Nat} {t : Nat × Nat} {p : Piece} (hp : p.ok n t) {s : Pt × Pt} (hs : s ∈ ring (place t p)) :
    (∃ sd, OnBnd n sd s) ∨ ∃ t' q, q.ok n t' ∧ rev s ∈ ring (place t' q) := by
  rw [ring_place] at hs
  obtain ⟨r, hr, rfl⟩ := List.mem_map.1 hs
  have hx : t.1 < n := Cond.lt hp.1
  have hy : t.2 < n := Cond.lt hp.2
  rcases opposite_table p (Piece.mem_all p) r hr _ _ _ _ ((flag_iff hx _).1 hp.1) ((flag_iff hy _).1 hp.2) with
    ⟨b, hb, rfl, h1, h2⟩ | ⟨⟨u, u'⟩, hu, ⟨v, v'⟩, hv, q, -, r', hr', h1, h2, e1, e2, e3, e4⟩
  · exact Or.inl ⟨b.1, t, b, hb, rfl, (flag_iff hx _).2 h1, (flag_iff hy _).2 h2, rfl⟩
  · right
    obtain ⟨zx, X', a1, a2, a3⟩ := follows_sound hu hx h1
    obtain ⟨zy, Y', b1, b2, b3⟩ := follows_sound hv hy h2
    simp only at e1 e2 e3 e4
    refine ⟨(X', Y'), q, ⟨a3, b3⟩, ?_⟩
    rw [ring_place]
    refine List.mem_map.2 ⟨r', hr', ?_⟩
    simp only [move, shift, rev, Prod.mk.injEq]
    omega

theorem bnd_owned {n : Nat} {sd : Side} {s : Pt × Pt} (h : OnBnd n sd s) : ∃ t p, p.ok n t ∧ s ∈ ring (place t p) := by
  obtain ⟨t, b, hb, -, h1, h2, rfl⟩ := h
  have hx : t.1 < n := Cond.lt h1
  have hy : t.2 < n := Cond.lt h2
  obtain ⟨p, -, hr, f1, f2⟩ := bside_owned_table b hb _ _ _ _ ((flag_iff hx _).1 h1) ((flag_iff hy _).1 h2)
  refine ⟨t, p, ⟨(flag_iff hx _).2 f1, (flag_iff hy _).2 f2⟩, ?_⟩
  rw [ring_place]
  exact List.mem_map.2 ⟨_, hr, rfl⟩

theorem bnd_alone {n : Nat} {sd : Side} {s : Pt × Pt} (h : OnBnd n sd s) {t : Nat × Nat} {p : Piece} (hp : p.ok n t) :
    rev s ∉ ring (place t p) := by
  intro hs
  obtain ⟨t0, b, hb, -, h1, h2, rfl⟩ := h
  rw [ring_place] at hs
  obtain ⟨r, hr, e⟩ := List.mem_map.1 hs
  obtain ⟨b1, b2, b3, b4⟩ := bside_le b hb
  obtain ⟨c1, c2, c3, c4, -⟩ := pts_le p (Piece.mem_all p) r hr
  simp only [move, shift, rev, Prod.mk.injEq] at e
  obtain ⟨⟨e1, e2⟩, e3, e4⟩ := e
  obtain ⟨zx, u, u', hu, hX, hX', f1⟩ := near b1 c3 e3.symm
  obtain ⟨zy, v, v', hv, hY, hY', f2⟩ := near b2 c4 e4.symm
  obtain ⟨ux, ux'⟩ := shifts_le hu
  obtain ⟨vy, vy'⟩ := shifts_le hv
  rcases bside_alone_table b hb (u, u') hu (v, v') hv p (Piece.mem_all p) r hr ⟨f1, f2, by simp only; omega,
    by simp only; omega⟩ with hbad | hbad
  · exact bad_sound ux ux' hbad (hX ▸ h1) (hX' ▸ hp.1)
  · exact bad_sound vy vy' hbad (hY ▸ h2) (hY' ▸ hp.2)

end Verif.HexMesh
