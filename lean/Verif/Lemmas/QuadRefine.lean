import Verif.Lemmas.TriRefine
import Verif.Spec.QuadMesh
import Mathlib.Tactic.FieldSimp
/-! Helper lemmas for the refinement of Cartesian meshes. -/
namespace Verif.QuadRefine
open Verif.Spec.QuadMesh
open TriRefine (Edge Bd midpoint eofs halves mids mp ix ix_spec ix_lt mp_inj mp_ge)

theorem Quad.lt_def (x y : Quad) : x < y ↔
    x.a < y.a ∨ (x.a = y.a ∧ (x.b < y.b ∨ (x.b = y.b ∧ (x.c < y.c ∨ (x.c = y.c ∧ x.d < y.d))))) := Iff.rfl

theorem Quad.ext' {x y : Quad} (h : x.a = y.a) (h' : x.b = y.b) (h'' : x.c = y.c) (h3 : x.d = y.d) : x = y := by
  cases x; cases y; simp_all

theorem Quad.trans {x y z : Quad} (h : x < y) (h' : y < z) : x < z := by
  rw [Quad.lt_def] at *; omega

theorem Quad.total {x y : Quad} (h : x ≠ y) : x < y ∨ y < x := by
  by_contra hc
  rw [not_or, Quad.lt_def, Quad.lt_def] at hc
  exact h (Quad.ext' (by omega) (by omega) (by omega) (by omega))

theorem Quad.irrefl (x : Quad) : ¬ x < x := by rw [Quad.lt_def]; omega

section
variable {K : Type} [Field K]

theorem breakEdges_eq (pts : List (K × K)) (es : List (Edge × Bd)) :
    breakEdges pts es = TriRefine.breakEdges pts es := by
  induction es generalizing pts with
  | nil => rfl
  | cons x es ih =>
    obtain ⟨e, b⟩ := x
    unfold breakEdges TriRefine.breakEdges
    cases ha : pts[e.a]? with
    | none => rfl
    | some p =>
      cases hb : pts[e.b]? with
      | none => rfl
      | some q =>
        have la := (List.getElem?_eq_some_iff.1 ha).1
        have lb := (List.getElem?_eq_some_iff.1 hb).1
        simp only [ih, TriRefine.mkEdge_lt la, TriRefine.mkEdge_lt lb]
        cases TriRefine.breakEdges (pts ++ [midpoint p q]) es <;> rfl

end

/-! ### The loop over the quadrangles -/

section
variable (E : List Edge) (N : Nat)

/-- Number of the centre of the `j`-th quadrangle. -/
def cen (j : Nat) : Nat := N + E.length + j

def ab (t : Quad) : Edge := ⟨t.a, t.b⟩
def ac (t : Quad) : Edge := ⟨t.a, t.c⟩
def bd (t : Quad) : Edge := ⟨t.b, t.d⟩
def cd (t : Quad) : Edge := ⟨t.c, t.d⟩

/-- The new inner edges of a quadrangle. -/
def inner (x : Quad × Nat) : List (Edge × Bd) :=
  [(⟨mp E N (ab x.1), cen E N x.2⟩, Bd.inner), (⟨mp E N (ac x.1), cen E N x.2⟩, Bd.inner),
   (⟨mp E N (bd x.1), cen E N x.2⟩, Bd.inner), (⟨mp E N (cd x.1), cen E N x.2⟩, Bd.inner)]

/-- The four children of a quadrangle. -/
def kids (x : Quad × Nat) : List Quad :=
  [⟨x.1.a, mp E N (ab x.1), mp E N (ac x.1), cen E N x.2⟩, ⟨x.1.b, mp E N (bd x.1), mp E N (ab x.1), cen E N x.2⟩,
   ⟨x.1.c, mp E N (ac x.1), mp E N (cd x.1), cen E N x.2⟩, ⟨x.1.d, mp E N (cd x.1), mp E N (bd x.1), cen E N x.2⟩]

/-- What is needed of a quadrangle. -/
structure QuadOk (t : Quad) : Prop where
  h1 : t.a < t.b
  h2 : t.a < t.c
  h3 : t.b < t.d
  h4 : t.c < t.d
  h5 : t.d < N
  h6 : t.b ≠ t.c
  e1 : ab t ∈ E
  e2 : ac t ∈ E
  e3 : bd t ∈ E
  e4 : cd t ∈ E

variable {E N}

theorem mp_lt (hs : E.Pairwise (· < ·)) {e : Edge} (he : e ∈ E) : mp E N e < N + E.length := by
  have := ix_lt E hs e he
  unfold mp
  omega

/-- The four midpoints are different. -/
theorem mp_ne (hs : E.Pairwise (· < ·)) {t : Quad} (ht : QuadOk E N t) :
    mp E N (ab t) ≠ mp E N (ac t) ∧ mp E N (ab t) ≠ mp E N (bd t) ∧ mp E N (ab t) ≠ mp E N (cd t) ∧
    mp E N (ac t) ≠ mp E N (bd t) ∧ mp E N (ac t) ≠ mp E N (cd t) ∧ mp E N (bd t) ≠ mp E N (cd t) := by
  have h1 := ht.h1
  have h2 := ht.h2
  have h3 := ht.h3
  have h4 := ht.h4
  have h6 := ht.h6
  rw [Ne, mp_inj hs ht.e1 ht.e2, Ne, mp_inj hs ht.e1 ht.e3, Ne, mp_inj hs ht.e1 ht.e4, Ne, mp_inj hs ht.e2 ht.e3,
    Ne, mp_inj hs ht.e2 ht.e4, Ne, mp_inj hs ht.e3 ht.e4]
  simp only [ab, ac, bd, cd, Edge.mk.injEq]
  omega

theorem mem_kids_iff (x : Quad × Nat) (k : Quad) : k ∈ kids E N x ↔
    k = ⟨x.1.a, mp E N (ab x.1), mp E N (ac x.1), cen E N x.2⟩ ∨
    k = ⟨x.1.b, mp E N (bd x.1), mp E N (ab x.1), cen E N x.2⟩ ∨
    k = ⟨x.1.c, mp E N (ac x.1), mp E N (cd x.1), cen E N x.2⟩ ∨
    k = ⟨x.1.d, mp E N (cd x.1), mp E N (bd x.1), cen E N x.2⟩ := by
  simp [kids]

theorem mem_inner_iff (x : Quad × Nat) (y : Edge × Bd) : y ∈ inner E N x ↔
    y = (⟨mp E N (ab x.1), cen E N x.2⟩, Bd.inner) ∨ y = (⟨mp E N (ac x.1), cen E N x.2⟩, Bd.inner) ∨
    y = (⟨mp E N (bd x.1), cen E N x.2⟩, Bd.inner) ∨ y = (⟨mp E N (cd x.1), cen E N x.2⟩, Bd.inner) := by
  simp [inner]

theorem kids_d {x : Quad × Nat} {k : Quad} (hk : k ∈ kids E N x) : k.d = cen E N x.2 := by
  rcases (mem_kids_iff x k).1 hk with rfl | rfl | rfl | rfl <;> rfl

theorem inner_b {x : Quad × Nat} {y : Edge × Bd} (hy : y ∈ inner E N x) : y.1.b = cen E N x.2 := by
  rcases (mem_inner_iff x y).1 hy with rfl | rfl | rfl | rfl <;> rfl

theorem cen_inj {i j : Nat} : cen E N i = cen E N j ↔ i = j := by unfold cen; omega

theorem kids_nodup {x : Quad × Nat} (ht : QuadOk E N x.1) : (kids E N x).Nodup := by
  have h1 := ht.h1
  have h2 := ht.h2
  have h3 := ht.h3
  have h4 := ht.h4
  have h6 := ht.h6
  simp only [kids, List.nodup_cons, List.mem_cons, Quad.mk.injEq, List.not_mem_nil, or_false, not_or,
    not_false_eq_true, List.nodup_nil, and_true]
  omega

theorem inner_nodup (hs : E.Pairwise (· < ·)) {x : Quad × Nat} (ht : QuadOk E N x.1) :
    ((inner E N x).map Prod.fst).Nodup := by
  obtain ⟨n1, n2, n3, n4, n5, n6⟩ := mp_ne hs ht
  simp only [inner, List.map_cons, List.map_nil, List.nodup_cons, List.mem_cons, Edge.mk.injEq, List.not_mem_nil,
    or_false, not_or, not_false_eq_true, List.nodup_nil, and_true]
  omega

theorem zipIdx_snd_ne (ts : List Quad) : ts.zipIdx.Pairwise fun x y => x.2 ≠ y.2 := by
  have h : (ts.zipIdx.map Prod.snd).Nodup := by
    rw [List.zipIdx_map_snd]
    exact List.nodup_range'
  exact List.pairwise_map.1 h

theorem flatMap_kids_nodup (ts : List Quad) (ht : ∀ t ∈ ts, QuadOk E N t) :
    (ts.zipIdx.flatMap (kids E N)).Nodup := by
  rw [List.nodup_flatMap]
  refine ⟨fun x hx => kids_nodup (ht x.1 (List.fst_mem_of_mem_zipIdx hx)), ?_⟩
  refine (zipIdx_snd_ne ts).imp ?_
  intro x y hne k hk hk'
  exact hne (cen_inj.1 ((kids_d hk).symm.trans (kids_d hk')))

theorem flatMap_inner_nodup (hs : E.Pairwise (· < ·)) (ts : List Quad) (ht : ∀ t ∈ ts, QuadOk E N t) :
    ((ts.zipIdx.flatMap (inner E N)).map Prod.fst).Nodup := by
  rw [List.map_flatMap, List.nodup_flatMap]
  refine ⟨fun x hx => inner_nodup hs (ht x.1 (List.fst_mem_of_mem_zipIdx hx)), ?_⟩
  refine (zipIdx_snd_ne ts).imp ?_
  intro x y hne e he he'
  obtain ⟨y1, hy1, rfl⟩ := List.mem_map.1 he
  obtain ⟨y2, hy2, h2⟩ := List.mem_map.1 he'
  exact hne (cen_inj.1 ((inner_b hy1).symm.trans (h2 ▸ inner_b hy2)))

theorem owners_flatMap {α : Type} (ts : List α) (f : α → List Quad) (e : Edge) :
    owners (ts.flatMap f) e = (ts.map fun t => owners (f t) e).sum := by
  unfold owners
  rw [List.countP_flatMap]
  rfl

theorem owners_cons (t : Quad) (ts : List Quad) (e : Edge) :
    owners (t :: ts) e = owners ts e + if e ∈ sides t then 1 else 0 := by
  simp [owners, List.countP_cons]

theorem ite_one {P1 P2 P3 P4 Q : Prop} [Decidable P1] [Decidable P2] [Decidable P3] [Decidable P4] [Decidable Q]
    (h12 : ¬ (P1 ∧ P2)) (h13 : ¬ (P1 ∧ P3)) (h14 : ¬ (P1 ∧ P4)) (h23 : ¬ (P2 ∧ P3)) (h24 : ¬ (P2 ∧ P4))
    (h34 : ¬ (P3 ∧ P4)) (h : Q ↔ P1 ∨ P2 ∨ P3 ∨ P4) :
    0 + (if P4 then 1 else 0) + (if P3 then 1 else 0) + (if P2 then 1 else 0) + (if P1 then 1 else 0) =
      if Q then 1 else 0 := by
  by_cases p1 : P1 <;> by_cases p2 : P2 <;> by_cases p3 : P3 <;> by_cases p4 : P4 <;> simp_all

theorem ite_two {P1 P2 P3 P4 : Prop} [Decidable P1] [Decidable P2] [Decidable P3] [Decidable P4]
    (h : (P1 ∧ P2 ∧ ¬ P3 ∧ ¬ P4) ∨ (P1 ∧ ¬ P2 ∧ P3 ∧ ¬ P4) ∨ (¬ P1 ∧ P2 ∧ ¬ P3 ∧ P4) ∨ (¬ P1 ∧ ¬ P2 ∧ P3 ∧ P4)) :
    0 + (if P4 then 1 else 0) + (if P3 then 1 else 0) + (if P2 then 1 else 0) + (if P1 then 1 else 0) = 2 := by
  rcases h with h | h | h | h <;> simp [h]

theorem half_arith {a b c d x y : Nat} (h1 : a < b) (h2 : a < c) (h3 : b < d) (h4 : c < d) (h6 : b ≠ c) (v : Nat)
    (hv : v = x ∨ v = y) :
    (x = a ∧ y = b ∨ x = a ∧ y = c ∨ x = b ∧ y = d ∨ x = c ∧ y = d) ↔
      (v = a ∧ (x = a ∧ y = b ∨ x = a ∧ y = c)) ∨ (v = b ∧ (x = b ∧ y = d ∨ x = a ∧ y = b)) ∨
      (v = c ∧ (x = a ∧ y = c ∨ x = c ∧ y = d)) ∨ (v = d ∧ (x = c ∧ y = d ∨ x = b ∧ y = d)) := by
  constructor
  · rintro (⟨rfl, rfl⟩ | ⟨rfl, rfl⟩ | ⟨rfl, rfl⟩ | ⟨rfl, rfl⟩) <;> rcases hv with rfl | rfl <;> simp
  · rintro (⟨-, h | h⟩ | ⟨-, h | h⟩ | ⟨-, h | h⟩ | ⟨-, h | h⟩) <;> simp [h]

/-- A half of an edge lies in one child of each owner of the edge. -/
theorem half_owners (hs : E.Pairwise (· < ·)) {x : Quad × Nat} (ht : QuadOk E N x.1) {e : Edge} (he : e ∈ E)
    (hea : e.a < e.b) (heb : e.b < N) (v : Nat) (hv : v = e.a ∨ v = e.b) :
    owners (kids E N x) ⟨v, mp E N e⟩ = if e ∈ sides x.1 then 1 else 0 := by
  obtain ⟨t, j⟩ := x
  dsimp only at ht ⊢
  have h1 := ht.h1
  have h2 := ht.h2
  have h3 := ht.h3
  have h4 := ht.h4
  have h5 := ht.h5
  have h6 := ht.h6
  have i1 := mp_inj (N := N) hs he ht.e1
  have i2 := mp_inj (N := N) hs he ht.e2
  have i3 := mp_inj (N := N) hs he ht.e3
  have i4 := mp_inj (N := N) hs he ht.e4
  have ext : ∀ f : Edge, e = f ↔ e.a = f.a ∧ e.b = f.b :=
    fun f => ⟨fun h => by rw [h]; simp, fun h => TriRefine.Edge.ext' h.1 h.2⟩
  have hside : e ∈ sides t ↔ e = ab t ∨ e = ac t ∨ e = bd t ∨ e = cd t := by simp [sides, ab, ac, bd, cd]
  have gv : v < N := by omega
  have key : ∀ w y z : Nat, N ≤ y → N ≤ z →
      ((⟨v, mp E N e⟩ : Edge) ∈ sides ⟨w, y, z, cen E N j⟩ ↔ v = w ∧ (mp E N e = y ∨ mp E N e = z)) := by
    intro w y z hy hz
    simp only [sides, List.mem_cons, Edge.mk.injEq, List.not_mem_nil, or_false]
    omega
  simp only [kids, owners_cons]
  rw [show owners [] ⟨v, mp E N e⟩ = 0 from rfl]
  simp only [key _ _ _ (mp_ge _) (mp_ge _), hside, i1, i2, i3, i4, ext]
  simp only [ab, ac, bd, cd]
  clear key hside i1 i2 i3 i4 ext
  refine ite_one ?_ ?_ ?_ ?_ ?_ ?_ ?_
  iterate 6
    · rintro ⟨⟨p1, -⟩, ⟨p2, -⟩⟩
      clear hv hs he ht
      omega
  exact half_arith h1 h2 h3 h4 h6 v hv

theorem inner_owners (hs : E.Pairwise (· < ·)) {x x0 : Quad × Nat} (ht : QuadOk E N x.1)
    (hx0 : x.2 = x0.2 → x = x0) {y : Edge × Bd} (hy : y ∈ inner E N x0) :
    owners (kids E N x) y.1 = if x.2 = x0.2 then 2 else 0 := by
  split_ifs with h
  · have := hx0 h
    subst this
    obtain ⟨t, j⟩ := x
    have g1 : N ≤ mp E N (ab t) := mp_ge _
    have g2 : N ≤ mp E N (ac t) := mp_ge _
    have g3 : N ≤ mp E N (bd t) := mp_ge _
    have g4 : N ≤ mp E N (cd t) := mp_ge _
    have l1 := mp_lt (N := N) hs ht.e1
    have l2 := mp_lt (N := N) hs ht.e2
    have l3 := mp_lt (N := N) hs ht.e3
    have l4 := mp_lt (N := N) hs ht.e4
    obtain ⟨n1, n2, n3, n4, n5, n6⟩ := mp_ne hs ht
    have h1 := ht.h1
    have h2 := ht.h2
    have h3 := ht.h3
    have h4 := ht.h4
    have h5 := ht.h5
    dsimp only at *
    have key : ∀ w p q e : Nat, w < N → N ≤ e → ((⟨e, cen E N j⟩ : Edge) ∈ sides ⟨w, p, q, cen E N j⟩ ↔ e = p ∨ e = q) := by
      intro w p q e hw he
      simp only [sides, List.mem_cons, Edge.mk.injEq, List.not_mem_nil, or_false, and_true]
      omega
    have hz : ∀ e, owners [] e = 0 := fun _ => rfl
    have ha : t.a < N := by omega
    have hb : t.b < N := by omega
    have hc : t.c < N := by omega
    rcases (mem_inner_iff (t, j) y).1 hy with rfl | rfl | rfl | rfl <;> dsimp only
    · simp only [kids, owners_cons, hz, key _ _ _ _ ha g1, key _ _ _ _ hb g1, key _ _ _ _ hc g1, key _ _ _ _ h5 g1]
      refine ite_two ?_
      simp [n1, n2, n3, n4, n5, n6, n1.symm, n2.symm, n3.symm, n4.symm, n5.symm, n6.symm]
    · simp only [kids, owners_cons, hz, key _ _ _ _ ha g2, key _ _ _ _ hb g2, key _ _ _ _ hc g2, key _ _ _ _ h5 g2]
      refine ite_two ?_
      simp [n1, n2, n3, n4, n5, n6, n1.symm, n2.symm, n3.symm, n4.symm, n5.symm, n6.symm]
    · simp only [kids, owners_cons, hz, key _ _ _ _ ha g3, key _ _ _ _ hb g3, key _ _ _ _ hc g3, key _ _ _ _ h5 g3]
      refine ite_two ?_
      simp [n1, n2, n3, n4, n5, n6, n1.symm, n2.symm, n3.symm, n4.symm, n5.symm, n6.symm]
    · simp only [kids, owners_cons, hz, key _ _ _ _ ha g4, key _ _ _ _ hb g4, key _ _ _ _ hc g4, key _ _ _ _ h5 g4]
      refine ite_two ?_
      simp [n1, n2, n3, n4, n5, n6, n1.symm, n2.symm, n3.symm, n4.symm, n5.symm, n6.symm]
  · unfold owners
    rw [List.countP_eq_zero]
    intro k hk hc
    have hc : y.1 ∈ sides k := by simpa using hc
    have hb := inner_b hy
    have l1 := mp_lt (N := N) hs ht.e1
    have l2 := mp_lt (N := N) hs ht.e2
    have l3 := mp_lt (N := N) hs ht.e3
    have l4 := mp_lt (N := N) hs ht.e4
    have hd := kids_d hk
    have hbk : k.b < N + E.length ∧ k.c < N + E.length := by
      rcases (mem_kids_iff x k).1 hk with rfl | rfl | rfl | rfl <;> exact ⟨by assumption, by assumption⟩
    simp only [sides, List.mem_cons, List.not_mem_nil, or_false] at hc
    unfold cen at hb hd
    rcases hc with hc | hc | hc | hc <;> rw [hc] at hb <;> dsimp only at hb <;> omega

theorem sum_ite {α : Type} (p : α → Bool) (c : Nat) (ts : List α) :
    (ts.map fun t => if p t then c else 0).sum = c * ts.countP p := by
  induction ts with
  | nil => simp
  | cons t ts ih =>
    rw [List.map_cons, List.sum_cons, ih, List.countP_cons]
    split_ifs <;> simp [Nat.mul_add] ; omega

theorem countP_zipIdx_fst (ts : List Quad) (p : Quad → Bool) (n : Nat) :
    (ts.zipIdx n).countP (fun x => p x.1) = ts.countP p := by
  induction ts generalizing n with
  | nil => rfl
  | cons t ts ih => simp only [List.zipIdx_cons, List.countP_cons, ih]

theorem countP_zipIdx_snd (ts : List Quad) (n j : Nat) (h : n ≤ j) (hj : j < n + ts.length) :
    (ts.zipIdx n).countP (fun x => decide (x.2 = j)) = 1 := by
  induction ts generalizing n with
  | nil => simp at hj; omega
  | cons t ts ih =>
    simp only [List.zipIdx_cons, List.countP_cons]
    by_cases hnj : n = j
    · subst hnj
      have h0 : (ts.zipIdx (n + 1)).countP (fun x => decide (x.2 = n)) = 0 := by
        rw [List.countP_eq_zero]
        intro x hx
        have := (List.mem_zipIdx hx).1
        simp
        omega
      simp [h0]
    · rw [ih (n + 1) (by omega) (by simp at hj; omega)]
      simp [hnj]

end

/-! ### The refined mesh -/

section
variable {K : Type} [Field K]

/-- The stored edges. -/
def keys (m : Mesh K) : List Edge := m.edges.map Prod.fst

/-- The centres of the quadrangles. -/
def centres (pts : List (K × K)) (ts : List Quad) : List (K × K) :=
  ts.map fun t => centre (pts.getD t.a 0) (pts.getD t.b 0) (pts.getD t.c 0) (pts.getD t.d 0)

theorem splitQuads_ok {E : List Edge} {N : Nat} (hs : E.Pairwise (· < ·)) (P pts : List (K × K)) (ts : List Quad)
    (j : Nat) (hN : N = P.length) (hpts : pts.length = N + E.length + j) (hpre : P <+: pts)
    (ht : ∀ t ∈ ts, QuadOk E N t) :
    splitQuads E N pts ts = .ok (pts ++ centres P ts, (ts.zipIdx j).flatMap (inner E N), (ts.zipIdx j).flatMap (kids E N)) := by
  induction ts generalizing pts j with
  | nil => simp [splitQuads, centres]
  | cons t ts ih =>
    have T := ht t (by simp)
    have h1 := T.h1
    have h2 := T.h2
    have h3 := T.h3
    have h4 := T.h4
    have h5 := T.h5
    have hget : ∀ i, i < N → pts[i]? = some (P.getD i 0) := by
      intro i hi
      obtain ⟨l, rfl⟩ := hpre
      have hi' : i < P.length := by omega
      rw [List.getElem?_append_left hi']
      simp [List.getD_eq_getElem?_getD, hi']
    unfold splitQuads
    rw [hget t.a (by omega), hget t.b (by omega), hget t.c (by omega), hget t.d h5]
    dsimp only
    rw [TriRefine.eofs_ok E hs N ⟨t.a, t.b⟩ T.e1, Outcome.bind_ok, TriRefine.eofs_ok E hs N ⟨t.a, t.c⟩ T.e2,
      Outcome.bind_ok, TriRefine.eofs_ok E hs N ⟨t.b, t.d⟩ T.e3, Outcome.bind_ok,
      TriRefine.eofs_ok E hs N ⟨t.c, t.d⟩ T.e4, Outcome.bind_ok]
    rw [ih (pts ++ [centre (P.getD t.a 0) (P.getD t.b 0) (P.getD t.c 0) (P.getD t.d 0)]) (j + 1)
      (by simp; omega) (hpre.trans (List.prefix_append _ _)) fun t' ht' => ht t' (by simp [ht'])]
    simp only [Outcome.bind_ok, List.zipIdx_cons, List.flatMap_cons, centres, List.map_cons, List.append_assoc,
      List.cons_append, List.nil_append, inner, kids, mp, ab, ac, bd, cd, cen, hpts]

/-- The refined mesh in closed form. -/
def fine (m : Mesh K) : Mesh K :=
  { points := m.points ++ mids m.points m.edges ++ centres m.points m.quads
    edges := Sort.sortBy (fun x y => decide (x.1 < y.1))
      (halves m.points.length m.edges ++ m.quads.zipIdx.flatMap (inner (keys m) m.points.length))
    quads := Sort.sortBy (fun x y => decide (x < y)) (m.quads.zipIdx.flatMap (kids (keys m) m.points.length)) }

theorem quadOk {m : Mesh K} (h : Conforming m) {t : Quad} (ht : t ∈ m.quads) : QuadOk (keys m) m.points.length t := by
  have hs := h.quad_sides t ht
  have e1 : ab t ∈ keys m := hs _ (by simp [sides, ab])
  have e2 : ac t ∈ keys m := hs _ (by simp [sides, ac])
  have e3 : bd t ∈ keys m := hs _ (by simp [sides, bd])
  have e4 : cd t ∈ keys m := hs _ (by simp [sides, cd])
  have hl : ∀ e ∈ keys m, e.a < e.b ∧ e.b < m.points.length := by
    intro e he
    obtain ⟨x, hx, rfl⟩ := List.mem_map.1 he
    exact h.edge_lt x hx
  exact ⟨(hl _ e1).1, (hl _ e2).1, (hl _ e3).1, (hl _ e4).1, (hl _ e3).2, h.quad_ne t ht, e1, e2, e3, e4⟩

theorem refine_ok {m : Mesh K} (h : Conforming m) : refine m = .ok (fine m) := by
  have h1 := TriRefine.breakEdges_ok m.points.length m.points m.edges le_rfl (by
    intro x hx
    have := h.edge_lt x hx
    omega)
  have h2 := splitQuads_ok (E := keys m) (N := m.points.length) h.edge_sorted m.points
    (m.points ++ mids m.points m.edges) m.quads 0 rfl (by simp [TriRefine.length_mids, keys])
    (List.prefix_append _ _) fun t ht => quadOk h ht
  unfold refine
  dsimp only
  rw [breakEdges_eq, h1]
  simp only [Outcome.bind_ok]
  rw [show List.map Prod.fst m.edges = keys m from rfl, h2]
  rfl

theorem mem_fine_quads (m : Mesh K) (k : Quad) :
    k ∈ (fine m).quads ↔ ∃ x ∈ m.quads.zipIdx, k ∈ kids (keys m) m.points.length x := by
  simp only [fine, (Sort.sortBy_perm _ _).mem_iff, List.mem_flatMap]

theorem mem_fine_edges (m : Mesh K) (x : Edge × Bd) :
    x ∈ (fine m).edges ↔ x ∈ halves m.points.length m.edges ∨
      ∃ t ∈ m.quads.zipIdx, x ∈ inner (keys m) m.points.length t := by
  simp only [fine, (Sort.sortBy_perm _ _).mem_iff, List.mem_append, List.mem_flatMap]

theorem flatMap_length {α β : Type} (ts : List α) (f : α → List β) (c : Nat) (h : ∀ t, (f t).length = c) :
    (ts.flatMap f).length = c * ts.length := by
  induction ts with
  | nil => simp
  | cons t ts ih => simp [ih, h, Nat.mul_add]; omega

theorem fine_quads_length (m : Mesh K) : (fine m).quads.length = 4 * m.quads.length := by
  simp only [fine, (Sort.sortBy_perm _ _).length_eq]
  rw [flatMap_length _ _ 4 fun t => rfl, List.length_zipIdx]

theorem fine_edges_length (m : Mesh K) : (fine m).edges.length = 2 * m.edges.length + 4 * m.quads.length := by
  simp only [fine, (Sort.sortBy_perm _ _).length_eq, List.length_append, TriRefine.length_halves]
  rw [flatMap_length _ _ 4 fun t => rfl, List.length_zipIdx]

theorem fine_points_length (m : Mesh K) :
    (fine m).points.length = m.points.length + m.edges.length + m.quads.length := by
  simp [fine, TriRefine.length_mids, centres]
  omega

theorem half_key {m : Mesh K} (h : Conforming m) {i : Nat} {e : Edge} {b : Bd}
    (hi : m.edges[i]? = some (e, b)) : m.points.length + i = mp (keys m) m.points.length e := by
  have he : e ∈ keys m := List.mem_map.2 ⟨(e, b), List.mem_of_getElem? hi, rfl⟩
  have h1 := ix_spec (keys m) h.edge_sorted e he
  have h2 : (keys m)[i]? = some e := by simp [keys, hi]
  obtain ⟨l1, h1⟩ := List.getElem?_eq_some_iff.1 h1
  obtain ⟨l2, h2⟩ := List.getElem?_eq_some_iff.1 h2
  have hnd : (keys m).Nodup := h.edge_sorted.imp fun h => ne_of_lt h
  have := (List.Nodup.getElem_inj_iff hnd (hi := l1) (hj := l2)).1 (h1.trans h2.symm)
  unfold mp
  omega

theorem mem_halves_iff {m : Mesh K} (h : Conforming m) (x : Edge × Bd) :
    x ∈ halves m.points.length m.edges ↔ ∃ y ∈ m.edges, ∃ v, (v = y.1.a ∨ v = y.1.b) ∧
      x = (⟨v, mp (keys m) m.points.length y.1⟩, y.2) := by
  rw [TriRefine.mem_halves]
  constructor
  · rintro ⟨i, e, b, hi, hx⟩
    refine ⟨(e, b), List.mem_of_getElem? hi, ?_⟩
    rw [half_key h hi] at hx
    rcases hx with hx | hx
    · exact ⟨e.a, .inl rfl, hx⟩
    · exact ⟨e.b, .inr rfl, hx⟩
  · rintro ⟨y, hy, v, hv, rfl⟩
    obtain ⟨i, hi⟩ := List.getElem?_of_mem hy
    refine ⟨i, y.1, y.2, hi, ?_⟩
    rw [half_key h hi]
    rcases hv with rfl | rfl
    · exact .inl rfl
    · exact .inr rfl

theorem zip_ok {m : Mesh K} (h : Conforming m) {x : Quad × Nat} (hx : x ∈ m.quads.zipIdx) :
    QuadOk (keys m) m.points.length x.1 ∧ x.2 < m.quads.length ∧ m.quads[x.2]? = some x.1 := by
  have := List.mem_zipIdx_iff_getElem?.1 hx
  exact ⟨quadOk h (List.mem_of_getElem? this), (List.getElem?_eq_some_iff.1 this).1, this⟩

theorem keys_length (m : Mesh K) : (keys m).length = m.edges.length := List.length_map ..

theorem fine_conforming {m : Mesh K} (h : Conforming m) : Conforming (fine m) := by
  have hs : (keys m).Pairwise (· < ·) := h.edge_sorted
  have hok : ∀ t ∈ m.quads, QuadOk (keys m) m.points.length t := fun t ht => quadOk h ht
  have hkl := keys_length m
  have hnd : ((halves m.points.length m.edges ++ m.quads.zipIdx.flatMap (inner (keys m) m.points.length)).map
      Prod.fst).Nodup := by
    rw [List.map_append, List.nodup_append]
    refine ⟨TriRefine.halves_nodup _ _ fun x hx => (h.edge_lt x hx).1, flatMap_inner_nodup hs _ hok, ?_⟩
    intro e he f hf hef
    subst hef
    obtain ⟨x, hx, hxe⟩ := List.mem_map.1 he
    obtain ⟨z, hz, hze⟩ := List.mem_map.1 hf
    obtain ⟨y, hy, v, hv, rfl⟩ := (mem_halves_iff h x).1 hx
    obtain ⟨t, ht, hzt⟩ := List.mem_flatMap.1 hz
    have h1 := mp_lt (N := m.points.length) hs (List.mem_map.2 ⟨y, hy, rfl⟩ : y.1 ∈ keys m)
    have h2 := inner_b hzt
    have h3 := congrArg Edge.b (hxe.trans hze.symm)
    unfold cen at h2
    dsimp only at h3
    omega
  constructor
  · intro x hx
    rw [fine_points_length]
    rcases (mem_fine_edges m x).1 hx with hx | ⟨t, ht, hx⟩
    · obtain ⟨y, hy, v, hv, rfl⟩ := (mem_halves_iff h x).1 hx
      have h1 := h.edge_lt y hy
      have h2 := mp_lt (N := m.points.length) hs (List.mem_map.2 ⟨y, hy, rfl⟩ : y.1 ∈ keys m)
      have h3 := mp_ge (E := keys m) (N := m.points.length) y.1
      dsimp only
      omega
    · obtain ⟨T, hj, _⟩ := zip_ok h ht
      have l1 := mp_lt (N := m.points.length) hs T.e1
      have l2 := mp_lt (N := m.points.length) hs T.e2
      have l3 := mp_lt (N := m.points.length) hs T.e3
      have l4 := mp_lt (N := m.points.length) hs T.e4
      rcases (mem_inner_iff t x).1 hx with rfl | rfl | rfl | rfl <;> dsimp only <;> unfold cen <;> omega
  · have := Sort.sortBy_sorted' (fun x y : Edge × Bd => decide (x.1 < y.1))
      (by
        intro a b c h1 h2
        have h1 := of_decide_eq_true h1
        have h2 := of_decide_eq_true h2
        exact decide_eq_true (lt_trans h1 h2))
      (halves m.points.length m.edges ++ m.quads.zipIdx.flatMap (inner (keys m) m.points.length))
      (by
        have := List.pairwise_map.1 hnd
        refine this.imp ?_
        intro a b hab
        rcases lt_or_gt_of_ne hab with h | h
        · exact .inl (decide_eq_true h)
        · exact .inr (decide_eq_true h))
    rw [List.pairwise_map]
    exact this.imp fun h => of_decide_eq_true h
  · intro k hk
    obtain ⟨x, hx, hk⟩ := (mem_fine_quads m k).1 hk
    obtain ⟨n1, n2, n3, n4, n5, n6⟩ := mp_ne hs (zip_ok h hx).1
    rcases (mem_kids_iff x k).1 hk with rfl | rfl | rfl | rfl <;> dsimp only <;> omega
  · have := Sort.sortBy_sorted' (fun x y : Quad => decide (x < y))
      (by
        intro a b c h1 h2
        exact decide_eq_true (Quad.trans (of_decide_eq_true h1) (of_decide_eq_true h2)))
      (m.quads.zipIdx.flatMap (kids (keys m) m.points.length))
      (by
        refine (flatMap_kids_nodup _ hok).imp ?_
        intro a b hab
        rcases Quad.total hab with h | h
        · exact .inl (decide_eq_true h)
        · exact .inr (decide_eq_true h))
    exact this.imp fun h => of_decide_eq_true h
  · intro k hk e he
    obtain ⟨t, ht, hk⟩ := (mem_fine_quads m k).1 hk
    rw [List.mem_map]
    have hi : ∀ x ∈ inner (keys m) m.points.length t, x ∈ (fine m).edges := fun x hx =>
      (mem_fine_edges m x).2 (.inr ⟨t, ht, hx⟩)
    have hh : ∀ f ∈ keys m, ∀ v, (v = f.a ∨ v = f.b) →
        ∃ x ∈ (fine m).edges, x.1 = ⟨v, mp (keys m) m.points.length f⟩ := by
      intro f hf v hv
      obtain ⟨y, hy, rfl⟩ := List.mem_map.1 hf
      exact ⟨_, (mem_fine_edges m _).2 (.inl ((mem_halves_iff h _).2 ⟨y, hy, v, hv, rfl⟩)), rfl⟩
    have T := (zip_ok h ht).1
    rcases (mem_kids_iff t k).1 hk with rfl | rfl | rfl | rfl <;>
      simp only [sides, List.mem_cons, List.not_mem_nil, or_false] at he <;>
      rcases he with rfl | rfl | rfl | rfl <;>
      first
        | exact hh _ T.e1 _ (.inl rfl)
        | exact hh _ T.e1 _ (.inr rfl)
        | exact hh _ T.e2 _ (.inl rfl)
        | exact hh _ T.e2 _ (.inr rfl)
        | exact hh _ T.e3 _ (.inl rfl)
        | exact hh _ T.e3 _ (.inr rfl)
        | exact hh _ T.e4 _ (.inl rfl)
        | exact hh _ T.e4 _ (.inr rfl)
        | exact ⟨_, hi _ ((mem_inner_iff t _).2 (.inl rfl)), rfl⟩
        | exact ⟨_, hi _ ((mem_inner_iff t _).2 (.inr (.inl rfl))), rfl⟩
        | exact ⟨_, hi _ ((mem_inner_iff t _).2 (.inr (.inr (.inl rfl)))), rfl⟩
        | exact ⟨_, hi _ ((mem_inner_iff t _).2 (.inr (.inr (.inr rfl)))), rfl⟩
  · intro x hx
    have hperm : ∀ e, owners (fine m).quads e =
        owners (m.quads.zipIdx.flatMap (kids (keys m) m.points.length)) e := by
      intro e
      exact (Sort.sortBy_perm _ _).countP_eq _
    rw [hperm, owners_flatMap]
    rcases (mem_fine_edges m x).1 hx with hx | ⟨t0, ht0, hx⟩
    · obtain ⟨y, hy, v, hv, rfl⟩ := (mem_halves_iff h x).1 hx
      have h1 := h.edge_lt y hy
      rw [← h.shared y hy]
      rw [List.map_congr_left (g := fun t => if (fun z : Quad × Nat => decide (y.1 ∈ sides z.1)) t = true then 1 else 0) (by
        intro t ht
        rw [half_owners hs (zip_ok h ht).1 (List.mem_map.2 ⟨y, hy, rfl⟩) h1.1 h1.2 v hv]
        simp)]
      rw [sum_ite, Nat.one_mul]
      exact countP_zipIdx_fst _ (fun t => decide (y.1 ∈ sides t)) 0
    · rw [List.map_congr_left (g := fun t => if (fun z : Quad × Nat => decide (z.2 = t0.2)) t = true then 2 else 0) (by
        intro t ht
        rw [inner_owners hs (zip_ok h ht).1 (fun hj => Prod.ext (by
          have h1 := (zip_ok h ht).2.2
          have h2 := (zip_ok h ht0).2.2
          rw [hj, h2] at h1
          exact (Option.some.inj h1).symm) hj) hx]
        simp)]
      rw [sum_ite, countP_zipIdx_snd _ _ _ (Nat.zero_le _) (by have := (zip_ok h ht0).2.1; omega)]
      have : x.2 = Bd.inner := by
        rcases (mem_inner_iff t0 x).1 hx with rfl | rfl | rfl | rfl <;> rfl
      rw [this]
      rfl

/-! ### Points -/

theorem fine_point_old (m : Mesh K) {i : Nat} (hi : i < m.points.length) : (fine m).points[i]? = m.points[i]? := by
  simp only [fine, List.append_assoc]
  rw [List.getElem?_append_left hi]

theorem fine_point_mid {m : Mesh K} (h : Conforming m) {e : Edge} (he : e ∈ keys m) {p q : K × K}
    (hp : m.points[e.a]? = some p) (hq : m.points[e.b]? = some q) :
    (fine m).points[mp (keys m) m.points.length e]? = some (midpoint p q) := by
  have hl := ix_lt (keys m) h.edge_sorted e he
  have hk := keys_length m
  have h1 := ix_spec (keys m) h.edge_sorted e he
  obtain ⟨x, hx, hxe⟩ : ∃ x, m.edges[ix (keys m) e]? = some x ∧ x.1 = e := by
    rw [show (keys m)[ix (keys m) e]? = (m.edges[ix (keys m) e]?).map Prod.fst from List.getElem?_map] at h1
    simpa using h1
  simp only [fine, mp]
  rw [List.getElem?_append_left (by simp [TriRefine.length_mids]; omega), List.getElem?_append_right (by omega),
    Nat.add_sub_cancel]
  unfold mids
  rw [List.getElem?_map, show m.edges[ix (keys m) e]? = some x from hx, Option.map_some, hxe]
  simp [List.getD_eq_getElem?_getD, hp, hq]

theorem fine_point_cen {m : Mesh K} {j : Nat} {t : Quad} (hj : m.quads[j]? = some t) {p q r s : K × K}
    (hp : m.points[t.a]? = some p) (hq : m.points[t.b]? = some q) (hr : m.points[t.c]? = some r)
    (hs : m.points[t.d]? = some s) : (fine m).points[cen (keys m) m.points.length j]? = some (centre p q r s) := by
  have hk := keys_length m
  simp only [fine, cen]
  rw [List.getElem?_append_right (by simp [TriRefine.length_mids]; omega)]
  rw [show m.points.length + (keys m).length + j - (m.points ++ mids m.points m.edges).length = j by
    simp [TriRefine.length_mids]; omega]
  unfold centres
  rw [List.getElem?_map, hj]
  simp [List.getD_eq_getElem?_getD, hp, hq, hr, hs]

/-- The corner and the side of the `i`-th child. -/
def kidCorner (p u : K × K) (i : Nat) : K × K :=
  match i with
  | 0 => at_ p u 0 0
  | 1 => at_ p u 1 0
  | 2 => at_ p u 0 1
  | _ => at_ p u 1 1

def kidSide (u : K × K) (i : Nat) : K × K :=
  match i with
  | 0 => (u.1 / 2, u.2 / 2)
  | 1 => (-u.2 / 2, u.1 / 2)
  | 2 => (u.2 / 2, -u.1 / 2)
  | _ => (-u.1 / 2, -u.2 / 2)

variable [CharZero K]

theorem kid_square {m : Mesh K} (h : Conforming m) {x : Quad × Nat} (hx : x ∈ m.quads.zipIdx) {p u : K × K}
    (hsq : IsSquare m.points x.1 p u) (i : Nat) (k : Quad) (hk : (kids (keys m) m.points.length x)[i]? = some k) :
    i < 4 ∧ IsSquare (fine m).points k (kidCorner p u i) (kidSide u i) := by
  obtain ⟨T, _, hj⟩ := zip_ok h hx
  obtain ⟨ha, hb, hc, hd⟩ := hsq
  have h1 := T.h1
  have h2 := T.h2
  have h3 := T.h3
  have h4 := T.h4
  have h5 := T.h5
  have oa := (fine_point_old m (show x.1.a < m.points.length by omega)).trans ha
  have ob := (fine_point_old m (show x.1.b < m.points.length by omega)).trans hb
  have oc := (fine_point_old m (show x.1.c < m.points.length by omega)).trans hc
  have od := (fine_point_old m h5).trans hd
  have m1 := fine_point_mid h T.e1 ha hb
  have m2 := fine_point_mid h T.e2 ha hc
  have m3 := fine_point_mid h T.e3 hb hd
  have m4 := fine_point_mid h T.e4 hc hd
  have m5 := fine_point_cen hj ha hb hc hd
  have hi : i < 4 := (List.getElem?_eq_some_iff.1 hk).1
  refine ⟨hi, ?_⟩
  have two : (2 : K) ≠ 0 := by norm_num
  have four : (4 : K) ≠ 0 := by norm_num
  have e : i = 0 ∨ i = 1 ∨ i = 2 ∨ i = 3 := by omega
  rcases e with rfl | rfl | rfl | rfl <;> simp only [kids, List.getElem?_cons_zero, List.getElem?_cons_succ,
    Option.some.injEq] at hk <;> subst hk <;> refine ⟨?_, ?_, ?_, ?_⟩ <;>
    first
      | (refine oa.trans ?_; congr 1)
      | (refine ob.trans ?_; congr 1)
      | (refine oc.trans ?_; congr 1)
      | (refine od.trans ?_; congr 1)
      | (refine m1.trans ?_; congr 1)
      | (refine m2.trans ?_; congr 1)
      | (refine m3.trans ?_; congr 1)
      | (refine m4.trans ?_; congr 1)
      | (refine m5.trans ?_; congr 1)
  all_goals
    simp only [at_, kidCorner, kidSide, midpoint, centre]
    refine Prod.ext ?_ ?_ <;> dsimp only <;> field_simp <;> ring

end
end Verif.QuadRefine
