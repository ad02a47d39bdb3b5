import Verif.Lemmas.HexOwners
/-! Lemmas for C76: the polygons cover the square and do not overlap. -/
namespace Verif.HexMesh
open Spec.HexMesh
variable {K : Type} [Field K] [LinearOrder K] [IsStrictOrderedRing K]

/-- Orientation of three points. -/
def ori (a b z : K × K) : K := (b.1 - a.1) * (z.2 - a.2) - (b.2 - a.2) * (z.1 - a.1)

/-- Lattice point as a point of the plane. -/
def emb (p : Pt) : K × K := ((p.1 : K), (p.2 : K))

theorem leftOf_eq (s : Pt × Pt) (z : K × K) : leftOf s z = ori (emb s.1) (emb s.2) z := rfl

theorem tri_le {α β γ : K} {a b c z : K × K} (h1 : 0 ≤ ori a b z) (h2 : 0 < ori b c z) (h3 : 0 ≤ ori c a z)
    (fa : α * a.1 + β * a.2 + γ ≤ 0) (fb : α * b.1 + β * b.2 + γ ≤ 0) (fc : α * c.1 + β * c.2 + γ ≤ 0) :
    α * z.1 + β * z.2 + γ ≤ 0 := by
  have key : (ori a b z + ori b c z + ori c a z) * (α * z.1 + β * z.2 + γ) =
      ori b c z * (α * a.1 + β * a.2 + γ) + ori c a z * (α * b.1 + β * b.2 + γ) + ori a b z * (α * c.1 + β * c.2 + γ) := by
    unfold ori; ring
  have hpos : 0 < ori a b z + ori b c z + ori c a z := by linarith
  have : (ori a b z + ori b c z + ori c a z) * (α * z.1 + β * z.2 + γ) ≤ 0 := by
    rw [key]
    have := mul_nonpos_of_nonneg_of_nonpos h2.le fa
    have := mul_nonpos_of_nonneg_of_nonpos h3 fb
    have := mul_nonpos_of_nonneg_of_nonpos h1 fc
    linarith
  by_contra hc
  have := mul_pos hpos (not_le.1 hc)
  linarith

theorem ori_swap (a b z : K × K) : ori a b z = - ori b a z := by unfold ori; ring

/-- A linear function that is not positive at the vertices of a fan is not positive inside. -/
theorem fan_le {α β γ : K} {v z : K × K} (w1 w2 : K × K) (ws : List (K × K))
    (h0 : 0 ≤ ori v w1 z) (hl : ori v ((w2 :: ws).getLast (by simp)) z ≤ 0)
    (hc : (w1 :: w2 :: ws).IsChain fun a b => 0 < ori a b z)
    (fv : α * v.1 + β * v.2 + γ ≤ 0) (fw : ∀ w ∈ w1 :: w2 :: ws, α * w.1 + β * w.2 + γ ≤ 0) :
    α * z.1 + β * z.2 + γ ≤ 0 := by
  induction ws generalizing w1 w2 with
  | nil =>
    simp only [List.getLast_singleton] at hl
    have h2 : 0 < ori w1 w2 z := by simpa using hc
    refine tri_le h0 h2 (by rw [ori_swap]; linarith) fv (fw w1 (by simp)) (fw w2 (by simp))
  | cons w3 ws ih =>
    have hc' := List.isChain_cons_cons.1 hc
    by_cases h : ori v w2 z ≤ 0
    · exact tri_le h0 hc'.1 (by rw [ori_swap]; linarith) fv (fw w1 (by simp)) (fw w2 (by simp))
    · refine ih w2 w3 (not_le.1 h).le ?_ hc'.2 fun w hw => fw w (List.mem_cons_of_mem _ hw)
      simpa using hl

theorem ring_cons_mem (a b : Pt) (l : List Pt) : (a, b) ∈ ring (a :: b :: l) := by simp [ring]

theorem chain_of_zip {R : Pt → Pt → Prop} (a : Pt) : ∀ (l : List Pt) (e : List Pt),
    (∀ s ∈ (a :: l).zip (l ++ e), R s.1 s.2) → (a :: l).IsChain R := by
  intro l
  induction l generalizing a with
  | nil => intro e _; simp
  | cons b l ih =>
    intro e h
    rw [List.isChain_cons_cons]
    refine ⟨h (a, b) (by simp), ih b e fun s hs => h s ?_⟩
    simp only [List.cons_append, List.zip_cons_cons, List.mem_cons]
    right; exact hs

theorem last_zip (a e : Pt) : ∀ (b : Pt) (l : List Pt), ((b :: l).getLast (by simp), e) ∈ (a :: b :: l).zip (b :: l ++ [e]) := by
  intro b l
  induction l generalizing a b with
  | nil => simp
  | cons c l ih =>
    have := ih b c
    simp only [List.cons_append, List.zip_cons_cons, List.mem_cons] at this ⊢
    right
    rw [List.getLast_cons (by simp)]
    exact this

/-- Inside a polygon with at least three vertices, a linear function is not larger than at the vertices. -/
theorem inside_le {α β γ : K} {P : Poly} (hP : 3 ≤ P.length) {z : K × K} (hz : InOpen P z)
    (hf : ∀ v ∈ P, α * (v.1 : K) + β * (v.2 : K) + γ ≤ 0) : α * z.1 + β * z.2 + γ ≤ 0 := by
  match P, hP, hz, hf with
  | v :: w1 :: w2 :: ws, _, hz, hf =>
    have hring : ring (v :: w1 :: w2 :: ws) = (v :: w1 :: w2 :: ws).zip (w1 :: w2 :: ws ++ [v]) := by simp [ring]
    have hchain : (w1 :: w2 :: ws).IsChain fun a b => 0 < ori (emb a : K × K) (emb b) z := by
      refine chain_of_zip w1 (w2 :: ws) [v] fun s hs => ?_
      refine hz s ?_
      rw [hring]
      simp only [List.cons_append, List.zip_cons_cons, List.mem_cons] at hs ⊢
      right; exact hs
    have h1 : 0 < ori (emb v : K × K) (emb w1) z := hz (v, w1) (ring_cons_mem v w1 _)
    have h2 : 0 < ori (emb ((w2 :: ws).getLast (by simp)) : K × K) (emb v) z := by
      refine hz (_, v) ?_
      rw [hring]
      have := last_zip v v w1 (w2 :: ws)
      rw [List.getLast_cons (by simp)] at this
      exact this
    refine fan_le (v := emb v) (emb w1) (emb w2) (ws.map emb) h1.le ?_ ?_ (hf v (by simp)) ?_
    · rw [ori_swap]
      have : (emb w2 :: ws.map emb).getLast (by simp) = (emb ((w2 :: ws).getLast (by simp)) : K × K) := by
        rw [← List.getLast_map (f := (emb : Pt → K × K))]; rfl
      rw [this]; linarith
    · have := (List.isChain_map (R := fun a b : K × K => 0 < ori a b z) emb).2 hchain
      simpa using this
    · intro w hw
      have : w ∈ (w1 :: w2 :: ws).map (emb : Pt → K × K) := by simpa using hw
      obtain ⟨u, hu, rfl⟩ := List.mem_map.1 this
      exact hf u (List.mem_cons_of_mem _ hu)

/-! ### Disjoint interiors -/

/-- Orientation of three lattice points. -/
def oriZ (s : Pt × Pt) (v : Pt) : Int :=
  ((s.2.1 : Int) - s.1.1) * ((v.2 : Int) - s.1.2) - ((s.2.2 : Int) - s.1.2) * ((v.1 : Int) - s.1.1)

theorem leftOf_emb (s : Pt × Pt) (v : Pt) : leftOf s (emb v : K × K) = ((oriZ s v : Int) : K) := by
  simp only [leftOf, emb, oriZ]
  push_cast
  ring

/-- A side of the first polygon has the whole second polygon on its right. -/
def separates (p q : Poly) : Bool := (ring p).any fun s => q.all fun v => decide (oriZ s v ≤ 0)

theorem separates_sound {P Q : Poly} (hQ : 3 ≤ Q.length) (h : separates P Q = true) {z : K × K}
    (h1 : InOpen P z) (h2 : InOpen Q z) : False := by
  simp only [separates, List.any_eq_true, List.all_eq_true, decide_eq_true_eq] at h
  obtain ⟨s, hs, hv⟩ := h
  have hpos := h1 s hs
  have := inside_le (α := -((s.2.2 : K) - s.1.2)) (β := (s.2.1 : K) - s.1.1)
    (γ := ((s.2.2 : K) - s.1.2) * s.1.1 - ((s.2.1 : K) - s.1.1) * s.1.2) hQ h2 (by
      intro v hvQ
      have := hv v hvQ
      have h3 : leftOf s (emb v : K × K) ≤ 0 := by
        rw [leftOf_emb]; exact_mod_cast this
      simp only [leftOf, emb] at h3
      linarith)
  simp only [leftOf] at hpos
  linarith

theorem shift_leftOf (a b : Nat) (s : Pt × Pt) (z : K × K) :
    leftOf (shift a b s.1, shift a b s.2) z = leftOf s (z.1 - a, z.2 - b) := by
  simp only [leftOf, shift]
  push_cast
  ring

theorem inOpen_shift (a b : Nat) (P : Poly) (z : K × K) : InOpen (P.map (shift a b)) z ↔ InOpen P (z.1 - a, z.2 - b) := by
  unfold InOpen
  rw [ring_shift]
  simp only [List.forall_mem_map, shift_leftOf]

theorem inClosed_shift (a b : Nat) (P : Poly) (z : K × K) : InClosed (P.map (shift a b)) z ↔ InClosed P (z.1 - a, z.2 - b) := by
  unfold InClosed
  rw [ring_shift]
  simp only [List.forall_mem_map, shift_leftOf]

theorem piece_length : ∀ p ∈ Piece.all, 3 ≤ p.pts.length := by decide

/-- The box of a piece. -/
theorem box {t : Nat × Nat} {p : Piece} {z : K × K} (h : InOpen (place t p) z) :
    4 * (t.1 : K) ≤ z.1 ∧ z.1 ≤ 4 * t.1 + 5 ∧ 4 * (t.2 : K) ≤ z.2 ∧ z.2 ≤ 4 * t.2 + 5 := by
  rw [place, inOpen_shift] at h
  have hl := piece_length p (Piece.mem_all p)
  have tab : ∀ p ∈ Piece.all, ∀ q ∈ p.pts, q.1 ≤ 5 ∧ q.2 ≤ 5 := by decide +kernel
  have hc : ∀ v ∈ p.pts, (0 : K) ≤ v.1 ∧ (v.1 : K) ≤ 5 ∧ (0 : K) ≤ v.2 ∧ (v.2 : K) ≤ 5 := by
    intro v hv
    obtain ⟨h1, h2⟩ := tab p (Piece.mem_all p) v hv
    exact ⟨Nat.cast_nonneg _, by exact_mod_cast h1, Nat.cast_nonneg _, by exact_mod_cast h2⟩
  have a1 := inside_le (α := -1) (β := 0) (γ := 0) hl h (fun v hv => by have := hc v hv; linarith)
  have a2 := inside_le (α := 1) (β := 0) (γ := -5) hl h (fun v hv => by have := hc v hv; linarith)
  have a3 := inside_le (α := 0) (β := -1) (γ := 0) hl h (fun v hv => by have := hc v hv; linarith)
  have a4 := inside_le (α := 0) (β := 1) (γ := -5) hl h (fun v hv => by have := hc v hv; linarith)
  push_cast at a1 a2 a3 a4
  refine ⟨?_, ?_, ?_, ?_⟩ <;> linarith

theorem near_box {X X' : Nat} {x : K} (h1 : 4 * (X : K) ≤ x) (h2 : x ≤ 4 * X + 5) (h1' : 4 * (X' : K) ≤ x) (h2' : x ≤ 4 * X' + 5) :
    ∃ z u u', (u, u') ∈ shifts ∧ X = z + u ∧ X' = z + u' := by
  have a : (4 * X : K) ≤ 4 * X' + 5 := by linarith
  have b : (4 * X' : K) ≤ 4 * X + 5 := by linarith
  have a' : 4 * X ≤ 4 * X' + 5 := by exact_mod_cast a
  have b' : 4 * X' ≤ 4 * X + 5 := by exact_mod_cast b
  by_cases h1 : X = X'
  · exact ⟨X, 0, 0, by simp [shifts], by omega, by omega⟩
  · by_cases h2 : X < X'
    · exact ⟨X, 0, 1, by simp [shifts], by omega, by omega⟩
    · exact ⟨X', 1, 0, by simp [shifts], by omega, by omega⟩

theorem sep_table : ∀ sx ∈ shifts, ∀ sy ∈ shifts, ∀ p ∈ Piece.all, ∀ q ∈ Piece.all,
    (p = q ∧ sx = (0, 0) ∧ sy = (0, 0)) ∨ bad sx.1 sx.2 p.cx q.cx = true ∨ bad sy.1 sy.2 p.cy q.cy = true ∨
    separates (place (sx.1, sy.1) p) (place (sx.2, sy.2) q) = true ∨
    separates (place (sx.2, sy.2) q) (place (sx.1, sy.1) p) = true := by
  decide +kernel

theorem place_add (x y u v : Nat) (p : Piece) : place (x + u, y + v) p = (place (u, v) p).map (shift (4 * x) (4 * y)) := by
  simp only [place, List.map_map]
  refine List.map_congr_left fun q _ => ?_
  simp only [Function.comp, shift, Prod.mk.injEq]
  omega

/-- A point is in the interior of one piece at most. -/
theorem interior_unique {n : Nat} {t t' : Nat × Nat} {p q : Piece} (hp : p.ok n t) (hq : q.ok n t') {z : K × K}
    (h : InOpen (place t p) z) (h' : InOpen (place t' q) z) : t = t' ∧ p = q := by
  obtain ⟨b1, b2, b3, b4⟩ := box h
  obtain ⟨c1, c2, c3, c4⟩ := box h'
  obtain ⟨zx, u, u', hu, hX, hX'⟩ := near_box b1 b2 c1 c2
  obtain ⟨zy, v, v', hv, hY, hY'⟩ := near_box b3 b4 c3 c4
  obtain ⟨ux, ux'⟩ := shifts_le hu
  obtain ⟨vy, vy'⟩ := shifts_le hv
  have et : t = (zx + u, zy + v) := Prod.ext hX hY
  have et' : t' = (zx + u', zy + v') := Prod.ext hX' hY'
  rcases sep_table (u, u') hu (v, v') hv p (Piece.mem_all p) q (Piece.mem_all q) with ⟨rfl, hx, hy⟩ | hb | hb | hs | hs
  · simp only [Prod.mk.injEq] at hx hy
    exact ⟨Prod.ext (by omega) (by omega), rfl⟩
  · exact (bad_sound ux ux' hb (hX ▸ hp.1) (hX' ▸ hq.1)).elim
  · exact (bad_sound vy vy' hb (hY ▸ hp.2) (hY' ▸ hq.2)).elim
  · rw [et, place_add, inOpen_shift] at h
    rw [et', place_add, inOpen_shift] at h'
    exact (separates_sound (by rw [place, List.length_map]; exact piece_length q (Piece.mem_all q)) hs h h').elim
  · rw [et, place_add, inOpen_shift] at h
    rw [et', place_add, inOpen_shift] at h'
    exact (separates_sound (by rw [place, List.length_map]; exact piece_length p (Piece.mem_all p)) hs h' h).elim

/-! ### Covering -/

theorem tile_of (n : Nat) (x : K) (h0 : 0 ≤ x) (h1 : x ≤ 4 * n) (hn : 0 < n) :
    ∃ X, X < n ∧ 0 ≤ x - 4 * (X : K) ∧ x - 4 * (X : K) ≤ 4 := by
  induction n with
  | zero => omega
  | succ n ih =>
    by_cases h : x ≤ 4 * n
    · by_cases hz : n = 0
      · subst hz
        exact ⟨0, by omega, by simpa using h0, by push_cast at h ⊢; linarith⟩
      · obtain ⟨X, a, b, c⟩ := ih h (by omega)
        exact ⟨X, by omega, b, c⟩
    · refine ⟨n, by omega, by linarith, ?_⟩
      push_cast at h1; linarith

theorem closed_place {t : Nat × Nat} {p : Piece} {z : K × K} (h : InClosed p.pts (z.1 - 4 * t.1, z.2 - 4 * t.2)) :
    InClosed (place t p) z := by
  rw [place, inClosed_shift]
  push_cast
  exact h

theorem cover_local {n : Nat} {X Y : Nat} (hX : X < n) (hY : Y < n) (z : K × K) (u v : K) (hu : u = z.1 - 4 * X) (hv : v = z.2 - 4 * Y)
    (u0 : 0 ≤ u) (u4 : u ≤ 4) (v0 : 0 ≤ v) (v4 : v ≤ 4) : ∃ t p, Piece.ok n t p ∧ InClosed (place t p) z := by
  have up : ∀ {W : Nat}, 0 < W → ((W - 1 : Nat) : K) = (W : K) - 1 := fun h => by
    rw [Nat.cast_sub h, Nat.cast_one]
  -- the lower and upper left triangles
  have left : ∀ (b : Bool), (if b then u ≤ v ∧ u ≤ 2 - v else u ≤ v - 2 ∧ u ≤ 4 - v) → ∃ t p, Piece.ok n t p ∧ InClosed (place t p) z := by
    intro b hb
    by_cases h0 : X = 0
    · refine ⟨(X, Y), if b then .triL else .triU, ?_, closed_place ?_⟩
      · cases b <;> simp [Piece.ok, Piece.cx, Piece.cy, Cond.ok] <;> omega
      · simp only [← hu, ← hv]
        cases b <;> simp [InClosed, Piece.pts, ring, leftOf] at hb ⊢ <;> and_intros <;> linarith
    · refine ⟨(X - 1, Y), if b then .hexL else .hexU, ?_, closed_place ?_⟩
      · cases b <;> simp [Piece.ok, Piece.cx, Piece.cy, Cond.ok] <;> omega
      · simp only [up (Nat.pos_of_ne_zero h0)]
        have e : z.1 - 4 * ((X : K) - 1) = u + 4 := by rw [hu]; ring
        rw [e, ← hv]
        cases b <;> simp [InClosed, Piece.pts, ring, leftOf] at hb ⊢ <;> and_intros <;> linarith
  have bottom : v ≤ 1 → v ≤ u → u ≤ 3 - v → ∃ t p, Piece.ok n t p ∧ InClosed (place t p) z := by
    intro h1 h2 h3
    by_cases h0 : Y = 0
    · refine ⟨(X, Y), .bottom, ?_, closed_place ?_⟩
      · simp [Piece.ok, Piece.cx, Piece.cy, Cond.ok]; omega
      · simp only [← hu, ← hv]
        simp [InClosed, Piece.pts, ring, leftOf]; and_intros <;> linarith
    · refine ⟨(X, Y - 1), .topH, ?_, closed_place ?_⟩
      · simp [Piece.ok, Piece.cx, Piece.cy, Cond.ok]; omega
      · simp only [up (Nat.pos_of_ne_zero h0)]
        have e : z.2 - 4 * ((Y : K) - 1) = v + 4 := by rw [hv]; ring
        rw [e, ← hu]
        simp [InClosed, Piece.pts, ring, leftOf]; and_intros <;> linarith
  have top : 3 ≤ v → 4 - v ≤ u → u ≤ v - 1 → ∃ t p, Piece.ok n t p ∧ InClosed (place t p) z := by
    intro h1 h2 h3
    by_cases h0 : Y + 1 = n
    · refine ⟨(X, Y), .topQ, ?_, closed_place ?_⟩
      · simp [Piece.ok, Piece.cx, Piece.cy, Cond.ok]; omega
      · simp only [← hu, ← hv]
        simp [InClosed, Piece.pts, ring, leftOf]; and_intros <;> linarith
    · refine ⟨(X, Y), .topH, ?_, closed_place ?_⟩
      · simp [Piece.ok, Piece.cx, Piece.cy, Cond.ok]; omega
      · simp only [← hu, ← hv]
        simp [InClosed, Piece.pts, ring, leftOf]; and_intros <;> linarith
  have main : 2 - v ≤ u → u ≤ 1 + v → v - 2 ≤ u → u ≤ 5 - v → 1 ≤ v → v ≤ 3 → ∃ t p, Piece.ok n t p ∧ InClosed (place t p) z := by
    intro h1 h2 h3 h4 h5 h6
    refine ⟨(X, Y), .main, ?_, closed_place ?_⟩
    · simp [Piece.ok, Piece.cx, Piece.cy, Cond.ok]; omega
    · simp only [← hu, ← hv]
      simp [InClosed, Piece.pts, ring, leftOf]; and_intros <;> linarith
  have right : ∀ (b : Bool), (if b then v ≤ 2 ∧ 3 - v ≤ u ∧ 1 + v ≤ u else 2 ≤ v ∧ 5 - v ≤ u ∧ v - 1 ≤ u) → ∃ t p, Piece.ok n t p ∧ InClosed (place t p) z := by
    intro b hb
    by_cases h0 : X + 1 = n
    · refine ⟨(X, Y), if b then .pentaL else .pentaU, ?_, closed_place ?_⟩
      · cases b <;> simp [Piece.ok, Piece.cx, Piece.cy, Cond.ok] <;> omega
      · simp only [← hu, ← hv]
        cases b <;> simp [InClosed, Piece.pts, ring, leftOf] at hb ⊢ <;> and_intros <;> linarith
    · refine ⟨(X, Y), if b then .hexL else .hexU, ?_, closed_place ?_⟩
      · cases b <;> simp [Piece.ok, Piece.cx, Piece.cy, Cond.ok] <;> omega
      · simp only [← hu, ← hv]
        cases b <;> simp [InClosed, Piece.pts, ring, leftOf] at hb ⊢ <;> and_intros <;> linarith
  rcases le_total v 2 with hv2 | hv2
  · rcases le_total v 1 with h | h
    · rcases le_total u v with h1 | h1
      · exact left true (by simp only [if_true]; constructor <;> linarith)
      · rcases le_total u (3 - v) with h2 | h2
        · exact bottom h h1 h2
        · exact right true (by simp only [if_true]; and_intros <;> linarith)
    · rcases le_total u (2 - v) with h1 | h1
      · exact left true (by simp only [if_true]; constructor <;> linarith)
      · rcases le_total u (1 + v) with h2 | h2
        · exact main h1 h2 (by linarith) (by linarith) h (by linarith)
        · exact right true (by simp only [if_true]; and_intros <;> linarith)
  · rcases le_total v 3 with h | h
    · rcases le_total u (v - 2) with h1 | h1
      · exact left false (by simp only [Bool.false_eq_true, if_false]; constructor <;> linarith)
      · rcases le_total u (5 - v) with h2 | h2
        · exact main (by linarith) (by linarith) h1 h2 (by linarith) h
        · exact right false (by simp only [Bool.false_eq_true, if_false]; and_intros <;> linarith)
    · rcases le_total u (4 - v) with h1 | h1
      · exact left false (by simp only [Bool.false_eq_true, if_false]; constructor <;> linarith)
      · rcases le_total u (v - 1) with h2 | h2
        · exact top h h1 h2
        · exact right false (by simp only [Bool.false_eq_true, if_false]; and_intros <;> linarith)

theorem cover {n : Nat} (hn : 0 < n) (z : K × K) (h1 : 0 ≤ z.1) (h2 : z.1 ≤ 4 * n) (h3 : 0 ≤ z.2) (h4 : z.2 ≤ 4 * n) :
    ∃ t p, Piece.ok n t p ∧ InClosed (place t p) z := by
  obtain ⟨X, hX, a, b⟩ := tile_of n z.1 h1 h2 hn
  obtain ⟨Y, hY, c, d⟩ := tile_of n z.2 h3 h4 hn
  exact cover_local hX hY z _ _ rfl rfl a b c d

end Verif.HexMesh
