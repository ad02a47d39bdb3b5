import Verif.Model.Hierarchy
import Verif.Lemmas.TriRefine
import Verif.Spec.Nested
import Verif.Props.Lookup
/-! Lemmas on the construction of mesh hierarchies. -/
namespace Verif.Hierarchy
open TriRefine Verif.Spec

theorem mkEdge_gt {p q : Nat} (h : q < p) : mkEdge p q = ⟨q, p⟩ := by
  unfold mkEdge; rw [if_pos h]

theorem mkTri_lt' {p q r : Nat} (h : p < r) (h' : r < q) : mkTri p q r = ⟨p, r, q⟩ := by
  have h1 : ¬ r < p := by omega
  have h2 : r < q := by omega
  simp [mkTri, Sort.sortBy, Sort.insertBy, h1, h2]

/-! ### Breaking the edges -/

section
variable {K : Type} [Field K]

/-- The internal edges after the first loop. -/
def broken (junk : Nat) : Nat → List (Edge × Bd) → List HEdge
  | _, [] => []
  | n, x :: xs => { ofMesh junk x with pb := some n } :: broken junk (n + 1) xs

theorem breakAll_ok (junk N : Nat) (pts : List (K × K)) (es : List (Edge × Bd)) (hN : N ≤ pts.length)
    (h : ∀ x ∈ es, x.1.a < N ∧ x.1.b < N) :
    breakAll pts (es.map (ofMesh junk)) = .ok (pts ++ mids pts es, broken junk pts.length es) := by
  induction es generalizing pts with
  | nil => simp [breakAll, mids, broken]
  | cons x es ih =>
    obtain ⟨e, b⟩ := x
    have h1 := h (e, b) (by simp)
    dsimp only at h1
    have ha : e.a < pts.length := by omega
    have hb : e.b < pts.length := by omega
    have hm : mids (pts ++ [midpoint pts[e.a] pts[e.b]]) es = mids pts es := by
      unfold mids
      apply List.map_congr_left
      intro y hy
      have h2 := h y (by simp [hy])
      have h3 : y.1.a < pts.length := by omega
      have h4 : y.1.b < pts.length := by omega
      simp [List.getD_eq_getElem?_getD, List.getElem?_append_left, h3, h4]
    rw [List.map_cons, breakAll]
    rw [show (ofMesh junk (e, b)).e = e from rfl, List.getElem?_eq_getElem ha, List.getElem?_eq_getElem hb]
    dsimp only
    rw [ih (pts ++ [midpoint pts[e.a] pts[e.b]]) (by simp; omega) (fun x hx => h x (by simp [hx])), hm]
    simp [mids, broken, List.getD_eq_getElem?_getD, ha, hb, ofMesh]

theorem broken_keys (junk n : Nat) (es : List (Edge × Bd)) :
    (broken junk n es).map HEdge.e = es.map Prod.fst := by
  induction es generalizing n with
  | nil => rfl
  | cons x es ih => simp [broken, ih, ofMesh]

theorem broken_get (junk n i : Nat) (es : List (Edge × Bd)) (x : Edge × Bd) (h : es[i]? = some x) :
    (broken junk n es)[i]? = some { ofMesh junk x with pb := some (n + i) } := by
  induction es generalizing n i with
  | nil => simp at h
  | cons y es ih =>
    cases i with
    | zero => simp only [List.getElem?_cons_zero, Option.some.injEq] at h; subst h; rfl
    | succ i =>
      simp only [List.getElem?_cons_succ] at h
      simp only [broken, List.getElem?_cons_succ]
      rw [ih (n + 1) i h, show n + 1 + i = n + (i + 1) by omega]

theorem broken_isSome (junk n : Nat) (es : List (Edge × Bd)) : ∀ x ∈ broken junk n es, x.pb.isSome = true := by
  induction es generalizing n with
  | nil => simp [broken]
  | cons y es ih =>
    intro x hx
    rcases List.mem_cons.1 hx with rfl | hx
    · rfl
    · exact ih _ x hx

theorem broken_length (junk n : Nat) (es : List (Edge × Bd)) : (broken junk n es).length = es.length := by
  have := congrArg List.length (broken_keys junk n es)
  simpa using this

theorem find_ok (junk : Nat) {m : Mesh K} (h : Conforming m) {e : Edge} (he : e ∈ keys m) :
    ∃ b, (e, b) ∈ m.edges ∧
      find (broken junk m.points.length m.edges) e.a e.b =
        .ok ({ ofMesh junk (e, b) with pb := some (mp (keys m) m.points.length e) },
          mp (keys m) m.points.length e) := by
  obtain ⟨⟨e', b⟩, hx, rfl⟩ := List.mem_map.1 he
  dsimp only at he ⊢
  have hlt := (h.edge_lt _ hx).1
  dsimp only at hlt
  refine ⟨b, hx, ?_⟩
  obtain ⟨i, hi⟩ := List.getElem?_of_mem hx
  have hk := half_key h hi
  have hix : ix (keys m) e' = i := by unfold mp at hk; omega
  unfold find
  rw [broken_keys, mkEdge_lt hlt]
  change (match (broken junk m.points.length m.edges)[ix (keys m) e']? with | none => _ | some x => _) = _
  rw [hix, broken_get junk _ _ _ _ hi, hk]

/-! ### Splitting the triangles -/

/-- What one triangle contributes to the edges. -/
def nine (junk : Nat) (m : Mesh K) (t : Tri) (b0 b1 b2 : Bd) : List HEdge :=
  let M := mp (keys m) m.points.length
  [ofMesh junk (⟨t.a, M (ab t)⟩, b0), ofMesh junk (⟨M (ab t), M (ac t)⟩, Bd.inner), ofMesh junk (⟨t.a, M (ac t)⟩, b2),
   ofMesh junk (⟨t.b, M (ab t)⟩, b0), ofMesh junk (⟨M (ab t), M (bc t)⟩, Bd.inner), ofMesh junk (⟨t.b, M (bc t)⟩, b1),
   ofMesh junk (⟨t.c, M (bc t)⟩, b1), ofMesh junk (⟨M (ac t), M (bc t)⟩, Bd.inner), ofMesh junk (⟨t.c, M (ac t)⟩, b2)]

theorem split_ok (junk : Nat) {m : Mesh K} (h : Conforming m) {t : Tri} (ht : t ∈ m.tris) :
    ∃ b0 b1 b2, (ab t, b0) ∈ m.edges ∧ (bc t, b1) ∈ m.edges ∧ (ac t, b2) ∈ m.edges ∧
      split junk (broken junk m.points.length m.edges) t =
        .ok (nine junk m t b0 b1 b2, (t, kids (keys m) m.points.length t)) := by
  have T := triOk_of_conforming h ht
  have hs : (keys m).Pairwise (· < ·) := h.edge_sorted
  obtain ⟨o1, o2⟩ := mp_order hs T
  have g1 := mp_ge (E := keys m) (N := m.points.length) (ab t)
  have g2 := mp_ge (E := keys m) (N := m.points.length) (ac t)
  have h1 := T.h1
  have h2 := T.h2
  have h3 := T.h3
  obtain ⟨b0, m0, f0⟩ := find_ok junk h T.e1
  obtain ⟨b1, m1, f1⟩ := find_ok junk h T.e2
  obtain ⟨b2, m2, f2⟩ := find_ok junk h T.e3
  refine ⟨b0, b1, b2, m0, m1, m2, ?_⟩
  simp only [ab, bc, ac] at f0 f1 f2
  unfold split
  rw [f0, f1, f2]
  simp only [Outcome.bind_ok, ofMesh, and_self, if_true, mk4, mk3]
  simp only [ab, bc, ac] at o1 o2 g1 g2
  simp only [nine, ofMesh, kids, ab, bc, ac]
  generalize mp (keys m) m.points.length ⟨t.a, t.b⟩ = x at *
  generalize mp (keys m) m.points.length ⟨t.a, t.c⟩ = y at *
  generalize mp (keys m) m.points.length ⟨t.b, t.c⟩ = z at *
  rw [mkEdge_lt (show t.a < x by omega), mkEdge_lt (show x < y by omega), mkEdge_lt (show t.a < y by omega),
    mkEdge_lt (show t.b < x by omega), mkEdge_lt (show x < z by omega), mkEdge_lt (show t.b < z by omega),
    mkEdge_lt (show t.c < z by omega), mkEdge_gt (show y < z by omega), mkEdge_lt (show t.c < y by omega),
    mkTri_lt (show t.a < x by omega) o1, mkTri_lt (show t.b < x by omega) (show x < z by omega),
    mkTri_lt' (show t.c < y by omega) o2, mkTri_lt' o1 o2]
  simp [Bd.inner]

theorem splitAll_ok (junk : Nat) {m : Mesh K} (h : Conforming m) (ts : List Tri) (hts : ∀ t ∈ ts, t ∈ m.tris) :
    ∃ L, splitAll junk (broken junk m.points.length m.edges) ts =
        .ok (L, ts.map fun t => (t, kids (keys m) m.points.length t)) ∧ L.length = 9 * ts.length ∧
      ∀ y, y ∈ L ↔ ∃ t ∈ ts, ∃ b0 b1 b2, (ab t, b0) ∈ m.edges ∧ (bc t, b1) ∈ m.edges ∧ (ac t, b2) ∈ m.edges ∧
        y ∈ nine junk m t b0 b1 b2 := by
  have huniq : ∀ e b b', (e, b) ∈ m.edges → (e, b') ∈ m.edges → b = b' := by
    intro e b b' h1 h2
    have hn : (m.edges.map Prod.fst).Nodup := h.edge_sorted.imp fun h => ne_of_lt h
    exact congrArg Prod.snd (List.inj_on_of_nodup_map hn h1 h2 rfl)
  induction ts with
  | nil => exact ⟨[], rfl, rfl, by simp⟩
  | cons t ts ih =>
    obtain ⟨L, h1, h2, h3⟩ := ih fun t' ht' => hts t' (by simp [ht'])
    obtain ⟨b0, b1, b2, m0, m1, m2, hs⟩ := split_ok junk h (hts t (by simp))
    refine ⟨nine junk m t b0 b1 b2 ++ L, ?_, ?_, ?_⟩
    · rw [splitAll, hs, h1]; rfl
    · rw [List.length_append, h2, List.length_cons]
      rw [show (nine junk m t b0 b1 b2).length = 9 from rfl]; omega
    · intro y
      rw [List.mem_append, h3]
      constructor
      · rintro (hy | ⟨t', ht', r⟩)
        · exact ⟨t, by simp, b0, b1, b2, m0, m1, m2, hy⟩
        · exact ⟨t', by simp [ht'], r⟩
      · rintro ⟨t', ht', c0, c1, c2, n0, n1, n2, hy⟩
        rcases List.mem_cons.1 ht' with rfl | ht'
        · rw [huniq _ _ _ n0 m0, huniq _ _ _ n1 m1, huniq _ _ _ n2 m2] at hy
          exact .inl hy
        · exact .inr ⟨t', ht', c0, c1, c2, n0, n1, n2, hy⟩

/-- The edges created are those of the mesher's refinement. -/
theorem mem_new_iff (junk : Nat) {m : Mesh K} (h : Conforming m) (y : HEdge) :
    (∃ t ∈ m.tris, ∃ b0 b1 b2, (ab t, b0) ∈ m.edges ∧ (bc t, b1) ∈ m.edges ∧ (ac t, b2) ∈ m.edges ∧
        y ∈ nine junk m t b0 b1 b2) ↔ ∃ x ∈ (fine m).edges, y = ofMesh junk x := by
  have hhalf : ∀ x ∈ m.edges, ∀ v, (v = x.1.a ∨ v = x.1.b) →
      ((⟨v, mp (keys m) m.points.length x.1⟩, x.2) : Edge × Bd) ∈ (fine m).edges := fun x hx v hv =>
    (mem_fine_edges m _).2 (.inl ((mem_halves_iff h _).2 ⟨x, hx, v, hv, rfl⟩))
  constructor
  · rintro ⟨t, ht, b0, b1, b2, m0, m1, m2, hy⟩
    have hin : ∀ x ∈ inner (keys m) m.points.length t, x ∈ (fine m).edges := fun x hx =>
      (mem_fine_edges m x).2 (.inr ⟨t, ht, hx⟩)
    simp only [nine, List.mem_cons, List.not_mem_nil, or_false] at hy
    rcases hy with rfl | rfl | rfl | rfl | rfl | rfl | rfl | rfl | rfl
    · exact ⟨_, hhalf _ m0 _ (.inl rfl), rfl⟩
    · exact ⟨_, hin _ ((mem_inner_iff t _).2 (.inr (.inr rfl))), rfl⟩
    · exact ⟨_, hhalf _ m2 _ (.inl rfl), rfl⟩
    · exact ⟨_, hhalf _ m0 _ (.inr rfl), rfl⟩
    · exact ⟨_, hin _ ((mem_inner_iff t _).2 (.inl rfl)), rfl⟩
    · exact ⟨_, hhalf _ m1 _ (.inl rfl), rfl⟩
    · exact ⟨_, hhalf _ m1 _ (.inr rfl), rfl⟩
    · exact ⟨_, hin _ ((mem_inner_iff t _).2 (.inr (.inl rfl))), rfl⟩
    · exact ⟨_, hhalf _ m2 _ (.inr rfl), rfl⟩
  · rintro ⟨x, hx, rfl⟩
    have hbd : ∀ t ∈ m.tris, ∃ b0 b1 b2, (ab t, b0) ∈ m.edges ∧ (bc t, b1) ∈ m.edges ∧ (ac t, b2) ∈ m.edges := by
      intro t ht
      obtain ⟨b0, b1, b2, m0, m1, m2, _⟩ := split_ok junk h ht
      exact ⟨b0, b1, b2, m0, m1, m2⟩
    rcases (mem_fine_edges m x).1 hx with hx | ⟨t, ht, hx⟩
    · obtain ⟨y, hy, v, hv, rfl⟩ := (mem_halves_iff h x).1 hx
      -- some triangle owns the edge
      have hown : 0 < owners m.tris y.1 := by
        rw [h.shared y hy]; split <;> omega
      obtain ⟨t, ht, hside⟩ := List.countP_pos_iff.1 hown
      have hside : y.1 ∈ triSides t := by simpa using hside
      obtain ⟨b0, b1, b2, m0, m1, m2⟩ := hbd t ht
      have huniq : ∀ b, (y.1, b) ∈ m.edges → b = y.2 := by
        intro b hb
        have hn : (m.edges.map Prod.fst).Nodup := h.edge_sorted.imp fun h => ne_of_lt h
        exact congrArg Prod.snd (List.inj_on_of_nodup_map hn hb hy rfl)
      refine ⟨t, ht, b0, b1, b2, m0, m1, m2, ?_⟩
      simp only [triSides, List.mem_cons, List.not_mem_nil, or_false] at hside
      rcases hside with hs | hs | hs
      · rw [show b0 = y.2 from huniq _ (by rw [hs]; exact m0)]
        rw [hs] at hv ⊢
        rcases hv with rfl | rfl <;> simp [nine, ab]
      · rw [show b1 = y.2 from huniq _ (by rw [hs]; exact m1)]
        rw [hs] at hv ⊢
        rcases hv with rfl | rfl <;> simp [nine, bc]
      · rw [show b2 = y.2 from huniq _ (by rw [hs]; exact m2)]
        rw [hs] at hv ⊢
        rcases hv with rfl | rfl <;> simp [nine, ac]
    · obtain ⟨b0, b1, b2, m0, m1, m2⟩ := hbd t ht
      refine ⟨t, ht, b0, b1, b2, m0, m1, m2, ?_⟩
      rcases (mem_inner_iff t x).1 hx with rfl | rfl | rfl <;> simp [nine]

end

/-! ### Discarding and sorting -/

theorem removeIf_append (p : HEdge → Bool) (l l' : List HEdge) (h : ∀ x ∈ l, p x = true)
    (h' : ∀ x ∈ l', p x = false) (hlen : l.length ≤ l'.length) :
    ∃ r, removeIf p (l ++ l') = l' ++ r ∧ ∀ x ∈ r, x ∈ l' := by
  have hf : (l ++ l').filter (fun x => !p x) = l' := by
    rw [List.filter_append, List.filter_eq_nil_iff.2 (by simpa using h),
      List.filter_eq_self.2 (by simpa using h'), List.nil_append]
  refine ⟨(l ++ l').drop l'.length, ?_, ?_⟩
  · unfold removeIf; rw [hf]
  · intro x hx
    rw [List.drop_append, List.drop_eq_nil_of_le hlen, List.nil_append] at hx
    exact List.mem_of_mem_drop hx

theorem unique_map (l : List HEdge) : (unique l).map HEdge.e = Lookup.unique (l.map HEdge.e) := by
  have key : ∀ (l : List HEdge) (x : HEdge),
      (uniqueFrom x l).map HEdge.e = Lookup.uniqueFrom x.e (l.map HEdge.e) := by
    intro l
    induction l with
    | nil => intro x; rfl
    | cons y ys ih =>
      intro x
      simp only [uniqueFrom, List.map_cons, Lookup.uniqueFrom]
      split_ifs with h
      · exact ih x
      · rw [List.map_cons, ih y]
  cases l with
  | nil => rfl
  | cons x xs => simp only [unique, List.map_cons, Lookup.unique, key]

theorem mem_unique (l : List HEdge) (hf : ∀ x ∈ l, ∀ y ∈ l, x.e = y.e → x = y) (z : HEdge) :
    z ∈ unique l ↔ z ∈ l := by
  have sub : ∀ (l : List HEdge) (x z : HEdge), z ∈ uniqueFrom x l → z ∈ l := by
    intro l
    induction l with
    | nil => intro x z h; exact h
    | cons y ys ih =>
      intro x z h
      simp only [uniqueFrom] at h
      split_ifs at h
      · exact List.mem_cons_of_mem _ (ih x z h)
      · rcases List.mem_cons.1 h with rfl | h
        · simp
        · exact List.mem_cons_of_mem _ (ih y z h)
  have sup : ∀ (l : List HEdge) (x z : HEdge), z ∈ l → (∃ w, (w = x ∨ w ∈ uniqueFrom x l) ∧ (w = x ∨ w ∈ l) ∧ w.e = z.e) := by
    intro l
    induction l with
    | nil => intro x z h; simp at h
    | cons y ys ih =>
      intro x z h
      simp only [uniqueFrom]
      split_ifs with he
      · rcases List.mem_cons.1 h with rfl | h
        · exact ⟨x, .inl rfl, .inl rfl, he⟩
        · obtain ⟨w, h1, h2, h3⟩ := ih x z h
          exact ⟨w, h1, h2.imp_right (List.mem_cons_of_mem _), h3⟩
      · rcases List.mem_cons.1 h with rfl | h
        · exact ⟨z, .inr (by simp), .inr (by simp), rfl⟩
        · obtain ⟨w, h1, h2, h3⟩ := ih y z h
          refine ⟨w, .inr ?_, .inr ?_, h3⟩
          · rcases h1 with rfl | h1
            · simp
            · exact List.mem_cons_of_mem _ h1
          · rcases h2 with rfl | h2
            · simp
            · exact List.mem_cons_of_mem _ h2
  cases l with
  | nil => rfl
  | cons x xs =>
    constructor
    · intro h
      rcases List.mem_cons.1 h with rfl | h
      · simp
      · exact List.mem_cons_of_mem _ (sub _ _ _ h)
    · intro h
      rcases List.mem_cons.1 h with rfl | h'
      · exact List.mem_cons_self
      · obtain ⟨w, h1, h2, h3⟩ := sup xs x z h'
        have hw : w ∈ x :: xs := by
          rcases h2 with rfl | h2
          · simp
          · exact List.mem_cons_of_mem _ h2
        have : w = z := hf w hw z h h3
        subst this
        rcases h1 with rfl | h1
        · exact List.mem_cons_self
        · exact List.mem_cons_of_mem _ h1

theorem sortUniq_keys (l : List HEdge) : ((sortUniq l).map HEdge.e).Pairwise (· < ·) := by
  unfold sortUniq
  rw [unique_map]
  apply Lookup.unique_sorted
  rw [List.pairwise_map]
  have := Sort.sortBy_weak hlt
    (by intro a b h; have := of_decide_eq_true h; exact decide_eq_false (lt_asymm this))
    (by
      intro a b c h1 h2
      have h1 := of_decide_eq_false h1
      have h2 := of_decide_eq_false h2
      exact decide_eq_false (not_lt.2 (le_trans (not_lt.1 h1) (not_lt.1 h2)))) l
  exact this.imp fun h => not_lt.1 (of_decide_eq_false h)

theorem sortUniq_eq (l l' : List HEdge) (hm : ∀ z, z ∈ l ↔ z ∈ l') (hs : (l'.map HEdge.e).Pairwise (· < ·)) :
    sortUniq l = l' := by
  have hs' := List.pairwise_map.1 hs
  have hf' : ∀ x ∈ l', ∀ y ∈ l', x.e = y.e → x = y := by
    intro x hx y hy hxy
    have hn : (l'.map HEdge.e).Nodup := hs.imp fun h => ne_of_lt h
    exact List.inj_on_of_nodup_map hn hx hy hxy
  have hm2 : ∀ z, z ∈ Sort.sortBy hlt l ↔ z ∈ l' := fun z => (Sort.sortBy_perm _ _).mem_iff.trans (hm z)
  have hf : ∀ x ∈ Sort.sortBy hlt l, ∀ y ∈ Sort.sortBy hlt l, x.e = y.e → x = y := fun x hx y hy =>
    hf' x ((hm2 x).1 hx) y ((hm2 y).1 hy)
  have hk := List.pairwise_map.1 (sortUniq_keys l)
  have hmem : ∀ z, z ∈ sortUniq l ↔ z ∈ l' := fun z => (mem_unique _ hf z).trans (hm2 z)
  have hn : (sortUniq l).Nodup := hk.imp fun h h' => absurd (h' ▸ h) (lt_irrefl _)
  have hn' : l'.Nodup := hs'.imp fun h h' => absurd (h' ▸ h) (lt_irrefl _)
  have hperm : (sortUniq l).Perm l' := (List.perm_ext_iff_of_nodup hn hn').2 hmem
  exact hperm.eq_of_pairwise (le := fun a b : HEdge => a.e < b.e)
    (fun a b _ _ hab hba => absurd hab (lt_asymm hba)) hk hs'

/-! ### The next mesh -/

section
variable {K : Type} [Field K]

/-- The mesh of the next level: the mesher's refinement with the identifiers of the inner edges replaced
by `junk`. -/
def next (junk : Nat) (m : Mesh K) : Mesh K :=
  { fine m with edges := (fine m).edges.map fun x => (x.1, ⟨if x.2.bnd then x.2.id else junk, x.2.bnd⟩) }

theorem edges_le (m : Mesh K) (h : Conforming m) : m.edges.length ≤ 3 * m.tris.length := by
  have hnd : (keys m).Nodup := h.edge_sorted.imp fun h => ne_of_lt h
  have hsub : keys m ⊆ m.tris.flatMap triSides := by
    intro e he
    obtain ⟨x, hx, rfl⟩ := List.mem_map.1 he
    have hown : 0 < owners m.tris x.1 := by
      rw [h.shared x hx]; split <;> omega
    obtain ⟨t, ht, hside⟩ := List.countP_pos_iff.1 hown
    exact List.mem_flatMap.2 ⟨t, ht, by simpa using hside⟩
  have := (List.subperm_of_subset hnd hsub).length_le
  rw [flatMap_length _ _ 3 fun t => rfl] at this
  simpa [keys] using this

theorem ofMesh_sorted (junk : Nat) (m : Mesh K) (h : Conforming m) :
    Sort.sortBy hlt (m.edges.map (ofMesh junk)) = m.edges.map (ofMesh junk) := by
  apply Sort.sortBy_id
  · intro a b h; exact decide_eq_false (lt_asymm (of_decide_eq_true h))
  · rw [List.pairwise_map]
    exact (List.pairwise_map.1 h.edge_sorted).imp fun h => decide_eq_true h

theorem buildNext_ok (junk : Nat) (m : Mesh K) (h : Conforming m) :
    buildNext junk m = .ok (next junk m, m.tris.map fun t => (t, kids (keys m) m.points.length t)) := by
  have hb := breakAll_ok junk m.points.length m.points m.edges le_rfl (by
    intro x hx
    have := h.edge_lt x hx
    omega)
  obtain ⟨L, hL, hlen, hmem⟩ := splitAll_ok junk h m.tris fun t ht => ht
  have hmem' : ∀ y, y ∈ L ↔ ∃ x ∈ (fine m).edges, y = ofMesh junk x := fun y =>
    (hmem y).trans (mem_new_iff junk h y)
  obtain ⟨r, hr, hrs⟩ := removeIf_append (fun x => x.pb.isSome) (broken junk m.points.length m.edges) L
    (broken_isSome _ _ _) (by
      intro y hy
      obtain ⟨x, _, rfl⟩ := (hmem' y).1 hy
      rfl) (by
      rw [broken_length, hlen]
      have := edges_le m h
      omega)
  have hfc := fine_conforming h
  have hsu : sortUniq (L ++ r) = (fine m).edges.map (ofMesh junk) := by
    apply sortUniq_eq
    · intro z
      rw [List.mem_append, List.mem_map]
      constructor
      · rintro (hz | hz)
        · obtain ⟨x, hx, rfl⟩ := (hmem' z).1 hz; exact ⟨x, hx, rfl⟩
        · obtain ⟨x, hx, rfl⟩ := (hmem' z).1 (hrs z hz); exact ⟨x, hx, rfl⟩
      · rintro ⟨x, hx, rfl⟩
        exact .inl ((hmem' _).2 ⟨x, hx, rfl⟩)
    · rw [List.map_map]
      exact hfc.edge_sorted
  unfold buildNext
  simp only [ofMesh_sorted junk m h]
  rw [hb]
  simp only [Outcome.bind_ok]
  rw [hL]
  simp only [Outcome.bind_ok]
  rw [hr, hsu]
  simp only [next, fine, List.map_map, List.flatMap_map]
  rfl

theorem next_conforming (junk : Nat) (m : Mesh K) (h : Conforming m) : Conforming (next junk m) := by
  have hf := fine_conforming h
  have hk : (next junk m).edges.map Prod.fst = (fine m).edges.map Prod.fst := by
    simp only [next, List.map_map]; rfl
  refine ⟨?_, ?_, hf.tri_lt, hf.tri_sorted, ?_, ?_⟩
  · intro x hx
    simp only [next, List.mem_map] at hx
    obtain ⟨y, hy, rfl⟩ := hx
    exact hf.edge_lt y hy
  · rw [hk]; exact hf.edge_sorted
  · rw [hk]; exact hf.tri_sides
  · intro x hx
    simp only [next, List.mem_map] at hx
    obtain ⟨y, hy, rfl⟩ := hx
    exact hf.shared y hy

/-! ### The map from coarse to fine -/

/-- Position of a triangle in a sorted list. -/
def pos (ts : List Tri) (t : Tri) : Nat := Lookup.lowerBound ts t

theorem lookup_ok (ts : List Tri) (hs : ts.Pairwise (· < ·)) (t : Tri) (ht : t ∈ ts) :
    Lookup.lookup ts t = .ok (Ident.Ident.mk' (pos ts t)) ∧ (Ident.Ident.mk' (pos ts t)).conv = .ok (pos ts t) ∧
      ts[pos ts t]? = some t := by
  obtain ⟨i, hi, rfl⟩ := List.getElem_of_mem ht
  have h1 := Lookup.lowerBound_getElem ts ((Lookup.strictSorted_iff_pairwise ts).2 hs) i hi
  have h2 : pos ts ts[i] = i := h1
  have h3 : ts[i]? = some ts[i] := List.getElem?_eq_getElem hi
  rw [h2]
  refine ⟨?_, rfl, h3⟩
  unfold Lookup.lookup Lookup.findElementId
  rw [show Lookup.lowerBound ts ts[i] = i from h1]
  simp [h3]

theorem lookups_ok (ts : List Tri) (hs : ts.Pairwise (· < ·)) (ks : List Tri) (hk : ∀ k ∈ ks, k ∈ ts) :
    lookups ts ks = .ok (ks.map (pos ts)) := by
  induction ks with
  | nil => rfl
  | cons k ks ih =>
    obtain ⟨h1, h2, _⟩ := lookup_ok ts hs k (hk k (by simp))
    rw [lookups, h1]
    simp only [Outcome.bind_ok]
    rw [h2]
    simp only [Outcome.bind_ok]
    rw [ih fun k hk' => hk k (by simp [hk'])]
    rfl

theorem c2fLoop_ok (coarse fine : List Tri) (hc : coarse.Pairwise (· < ·)) (hf : fine.Pairwise (· < ·))
    (g : Tri → List Tri) (ts : List Tri) (hts : ∀ t ∈ ts, t ∈ coarse) (hg : ∀ t ∈ ts, ∀ k ∈ g t, k ∈ fine)
    (ret : List (List Nat)) (hret : ret.length = coarse.length) :
    ∃ r, c2fLoop coarse fine (ts.map fun t => (t, g t)) ret = .ok r ∧ r.length = coarse.length ∧
      ∀ (i : Nat) (t : Tri), coarse[i]? = some t → r[i]? = if t ∈ ts then some ((g t).map (pos fine)) else ret[i]? := by
  induction ts generalizing ret with
  | nil => exact ⟨ret, rfl, hret, by simp⟩
  | cons t ts ih =>
    obtain ⟨h1, h2, h3⟩ := lookup_ok coarse hc t (hts t (by simp))
    obtain ⟨r, r1, r2, r3⟩ := ih (fun t' h => hts t' (by simp [h])) (fun t' h => hg t' (by simp [h]))
      (ret.set (pos coarse t) ((g t).map (pos fine))) (by simpa using hret)
    refine ⟨r, ?_, r2, ?_⟩
    · rw [List.map_cons, c2fLoop, h1]
      simp only [Outcome.bind_ok]
      rw [h2]
      simp only [Outcome.bind_ok]
      rw [lookups_ok fine hf _ (hg t (by simp))]
      exact r1
    · intro i t' hi
      rw [r3 i t' hi]
      have hil : i < coarse.length := (List.getElem?_eq_some_iff.1 hi).1
      by_cases htt : t' = t
      · subst htt
        have hpi : pos coarse t' = i := by
          have hnd : coarse.Nodup := hc.imp fun h => ne_of_lt h
          obtain ⟨l1, e1⟩ := List.getElem?_eq_some_iff.1 h3
          obtain ⟨l2, e2⟩ := List.getElem?_eq_some_iff.1 hi
          exact (List.Nodup.getElem_inj_iff hnd (hi := l1) (hj := l2)).1 (e1.trans e2.symm)
        split_ifs with hm hm' hm'
        · rfl
        · exact absurd (List.mem_cons_self) hm'
        · rw [hpi, List.getElem?_set_self (by omega)]
        · exact absurd (List.mem_cons_self) hm'
      · have hpi : pos coarse t ≠ i := by
          intro hp
          rw [hp, hi] at h3
          exact htt (Option.some.inj h3)
        simp only [List.mem_cons, htt, false_or]
        split_ifs
        · rfl
        · rw [List.getElem?_set_ne hpi]

theorem c2f_ok (junk : Nat) (m : Mesh K) (h : Conforming m) :
    c2f m.tris (next junk m).tris (m.tris.map fun t => (t, kids (keys m) m.points.length t)) =
      .ok (m.tris.map fun t => (kids (keys m) m.points.length t).map (pos (fine m).tris)) := by
  have hf := fine_conforming h
  obtain ⟨r, h1, h2, h3⟩ := c2fLoop_ok m.tris (fine m).tris h.tri_sorted hf.tri_sorted
    (kids (keys m) m.points.length) m.tris (fun t ht => ht)
    (fun t ht k hk => (mem_fine_tris m k).2 ⟨t, ht, hk⟩)
    (List.replicate m.tris.length [0, 0, 0, 0]) (by simp)
  unfold c2f
  rw [Sort.sortBy_id]
  · change c2fLoop m.tris (fine m).tris _ _ = _
    rw [h1]
    congr 1
    apply List.ext_getElem?
    intro i
    by_cases hi : i < m.tris.length
    · have := h3 i m.tris[i] (List.getElem?_eq_getElem hi)
      rw [if_pos (List.getElem_mem hi)] at this
      rw [this]
      simp [hi]
    · rw [List.getElem?_eq_none (by omega), List.getElem?_eq_none (by simp; omega)]
  · intro a b h; exact decide_eq_false (lt_asymm (of_decide_eq_true h))
  · rw [List.pairwise_map]
    exact h.tri_sorted.imp fun h => decide_eq_true h

/-! ### Nestedness -/

theorem corners_of_conforming {m : Mesh K} (h : Conforming m) {t : Tri} (ht : t ∈ m.tris) :
    ∃ p q r, m.points[t.a]? = some p ∧ m.points[t.b]? = some q ∧ m.points[t.c]? = some r := by
  have T := triOk_of_conforming h ht
  have h1 := T.h1
  have h2 := T.h2
  have h3 := T.h3
  exact ⟨_, _, _, List.getElem?_eq_getElem (show t.a < m.points.length by omega),
    List.getElem?_eq_getElem (show t.b < m.points.length by omega), List.getElem?_eq_getElem h3⟩

theorem pos_range (ts : List Tri) (hs : ts.Pairwise (· < ·)) : ts.map (pos ts) = List.range ts.length := by
  apply List.ext_getElem
  · simp
  · intro i h1 h2
    simp only [List.length_map] at h1
    simp only [List.getElem_map, List.getElem_range]
    exact Lookup.lowerBound_getElem ts ((Lookup.strictSorted_iff_pairwise ts).2 hs) i h1

theorem nested_next (junk : Nat) (m : Mesh K) (h : Conforming m) :
    Nested m (next junk m) (m.tris.map fun t => (kids (keys m) m.points.length t).map (pos (fine m).tris)) := by
  have hf := fine_conforming h
  refine ⟨by simp, ?_, ?_⟩
  · have hp : (fine m).tris.Perm (m.tris.flatMap (kids (keys m) m.points.length)) := Sort.sortBy_perm _ _
    have h1 : (m.tris.map fun t => (kids (keys m) m.points.length t).map (pos (fine m).tris)).flatten =
        (m.tris.flatMap (kids (keys m) m.points.length)).map (pos (fine m).tris) := by
      rw [List.map_flatMap, List.flatMap_def]
    rw [h1]
    have h2 := (hp.map (pos (fine m).tris)).symm
    rw [pos_range _ hf.tri_sorted] at h2
    exact h2
  · intro i p q r hc
    unfold cornersAt at hc
    cases ht : m.tris[i]? with
    | none => rw [ht] at hc; simp at hc
    | some t =>
      rw [ht] at hc
      have htm := List.mem_of_getElem? ht
      have T := triOk_of_conforming h htm
      obtain ⟨p', q', r', hp, hq, hr⟩ := corners_of_conforming h htm
      simp only [corners, hp, hq, hr, Option.some.injEq, Prod.mk.injEq] at hc
      obtain ⟨rfl, rfl, rfl⟩ := hc
      have h1 := T.h1
      have h2 := T.h2
      have h3 := T.h3
      have mid : ∀ e ∈ keys m, ∀ x y, m.points[e.a]? = some x → m.points[e.b]? = some y →
          (fine m).points[mp (keys m) m.points.length e]? = some (half x y) := by
        intro e he x y hx hy
        obtain ⟨x', y', hx', hy', hm⟩ := fine_point_mid h he
        rw [Option.some.inj (hx.symm.trans hx'), Option.some.inj (hy.symm.trans hy')]
        exact hm
      have m1 := mid _ T.e1 _ _ hp hq
      have m2 := mid _ T.e2 _ _ hq hr
      have m3 := mid _ T.e3 _ _ hp hr
      have fa := (fine_point_old m (show t.a < m.points.length by omega)).trans hp
      have fb := (fine_point_old m (show t.b < m.points.length by omega)).trans hq
      have fc := (fine_point_old m h3).trans hr
      have hat : ∀ k ∈ kids (keys m) m.points.length t, cornersAt (next junk m) (pos (fine m).tris k) =
          corners (fine m) k := by
        intro k hk
        have := (lookup_ok (fine m).tris hf.tri_sorted k ((mem_fine_tris m k).2 ⟨t, htm, hk⟩)).2.2
        unfold cornersAt
        rw [show (next junk m).tris = (fine m).tris from rfl, this]
        rfl
      refine ⟨pos (fine m).tris ⟨t.a, mp (keys m) m.points.length (ab t), mp (keys m) m.points.length (ac t)⟩,
        pos (fine m).tris ⟨t.b, mp (keys m) m.points.length (ab t), mp (keys m) m.points.length (bc t)⟩,
        pos (fine m).tris ⟨t.c, mp (keys m) m.points.length (ac t), mp (keys m) m.points.length (bc t)⟩,
        pos (fine m).tris ⟨mp (keys m) m.points.length (ab t), mp (keys m) m.points.length (ac t),
          mp (keys m) m.points.length (bc t)⟩, ?_, ?_, ?_, ?_, ?_⟩
      · rw [List.getElem?_map, ht]; rfl
      · rw [hat _ (by simp [kids])]
        simp only [corners, fa, m1, m3]
      · rw [hat _ (by simp [kids])]
        simp only [corners, fb, m1, m2]
      · rw [hat _ (by simp [kids])]
        simp only [corners, fc, m3, m2]
      · rw [hat _ (by simp [kids])]
        simp only [corners, m1, m3, m2]

/-! ### The hierarchy against the mesher -/

/-- Forget the identifiers of inner edges. -/
def norm (x : Edge × Bd) : Edge × Bd := if x.2.bnd then x else (x.1, Bd.inner)

theorem norm_fst (x : Edge × Bd) : (norm x).1 = x.1 := by unfold norm; split <;> rfl

/-- Meshes that differ in the identifiers of inner edges only. -/
structure Same (m m' : Mesh K) : Prop where
  points : m.points = m'.points
  tris : m.tris = m'.tris
  edges : m.edges.map norm = m'.edges.map norm

theorem insertBy_map (x : Edge × Bd) (l : List (Edge × Bd)) :
    Sort.insertBy (fun x y : Edge × Bd => decide (x.1 < y.1)) (norm x) (l.map norm) =
      (Sort.insertBy (fun x y : Edge × Bd => decide (x.1 < y.1)) x l).map norm := by
  induction l with
  | nil => rfl
  | cons y ys ih =>
    simp only [List.map_cons, Sort.insertBy, norm_fst, ih]
    split <;> simp

theorem sortBy_map (l : List (Edge × Bd)) :
    Sort.sortBy (fun x y : Edge × Bd => decide (x.1 < y.1)) (l.map norm) =
      (Sort.sortBy (fun x y : Edge × Bd => decide (x.1 < y.1)) l).map norm := by
  induction l with
  | nil => rfl
  | cons x xs ih => rw [List.map_cons, Sort.sortBy, ih, insertBy_map]; rfl

theorem halves_norm (n : Nat) (es : List (Edge × Bd)) : (halves n es).map norm = halves n (es.map norm) := by
  induction es generalizing n with
  | nil => rfl
  | cons x es ih =>
    obtain ⟨e, b⟩ := x
    simp only [halves, List.map_cons, ih]
    cases hb : b.bnd <;> simp [norm, hb, halves]

theorem inner_norm (E : List Edge) (N : Nat) (t : Tri) : (inner E N t).map norm = inner E N t := rfl

theorem Same.keys_eq {m m' : Mesh K} (h : Same m m') : keys m = keys m' := by
  have := congrArg (List.map Prod.fst) h.edges
  simp only [List.map_map] at this
  have hn : (Prod.fst ∘ norm : Edge × Bd → Edge) = Prod.fst := by funext x; exact norm_fst x
  rwa [hn] at this

theorem Same.fine {m m' : Mesh K} (h : Same m m') : Same (fine m) (fine m') := by
  have hk := h.keys_eq
  have hm : mids m.points m.edges = mids m'.points m'.edges := by
    have h1 : ∀ m : Mesh K, mids m.points m.edges =
        (keys m).map fun e => midpoint (m.points.getD e.a 0) (m.points.getD e.b 0) := by
      intro m; simp only [mids, keys, List.map_map]; rfl
    rw [h1, h1, hk, h.points]
  refine ⟨?_, ?_, ?_⟩
  · show m.points ++ mids m.points m.edges = m'.points ++ mids m'.points m'.edges
    rw [hm, h.points]
  · simp only [TriRefine.fine, hk, h.points, h.tris]
  · simp only [TriRefine.fine]
    rw [← sortBy_map, ← sortBy_map, List.map_append, List.map_append, halves_norm, halves_norm, h.edges,
      h.points, h.tris, hk]

theorem same_next (junk : Nat) (m : Mesh K) : Same (TriRefine.fine m) (next junk m) := by
  refine ⟨rfl, rfl, ?_⟩
  simp only [next, List.map_map]
  apply List.map_congr_left
  rintro ⟨e, b⟩ _
  cases hb : b.bnd
  · simp [norm, hb]
  · simp only [norm, hb, Function.comp_apply, if_true]
    congr 1
    cases b; simp_all

theorem Same.refl (m : Mesh K) : Same m m := ⟨rfl, rfl, rfl⟩
theorem Same.trans {a b c : Mesh K} (h : Same a b) (h' : Same b c) : Same a c :=
  ⟨h.points.trans h'.points, h.tris.trans h'.tris, h.edges.trans h'.edges⟩

theorem Same.conforming {m m' : Mesh K} (h : Same m m') (hc : Conforming m) : Conforming m' := by
  have hk : m.edges.map Prod.fst = m'.edges.map Prod.fst := h.keys_eq
  have hx : ∀ x ∈ m'.edges, ∃ y ∈ m.edges, y.1 = x.1 ∧ y.2.bnd = x.2.bnd := by
    intro x hx
    have h1 : norm x ∈ m.edges.map norm := by rw [h.edges]; exact List.mem_map.2 ⟨x, hx, rfl⟩
    obtain ⟨y, hy, hyx⟩ := List.mem_map.1 h1
    refine ⟨y, hy, ?_, ?_⟩
    · rw [← norm_fst y, hyx, norm_fst]
    · have hb : ∀ z : Edge × Bd, (norm z).2.bnd = z.2.bnd := by
        rintro ⟨e, b⟩; cases hb : b.bnd <;> simp [norm, hb, Bd.inner]
      rw [← hb y, hyx, hb]
  refine ⟨?_, hk ▸ hc.edge_sorted, h.tris ▸ hc.tri_lt, h.tris ▸ hc.tri_sorted, ?_, ?_⟩
  · intro x hx'
    obtain ⟨y, hy, e, _⟩ := hx x hx'
    rw [← e, ← h.points]; exact hc.edge_lt y hy
  · rw [← h.tris, ← hk]; exact hc.tri_sides
  · intro x hx'
    obtain ⟨y, hy, e, b⟩ := hx x hx'
    rw [← e, ← b, ← h.tris]; exact hc.shared y hy

theorem refineN_same (k : Nat) {m m' : Mesh K} (h : Same m m') (hc : Conforming m) :
    ∃ f f', refineN k m = .ok f ∧ refineN k m' = .ok f' ∧ Same f f' := by
  induction k generalizing m m' with
  | zero => exact ⟨m, m', rfl, rfl, h⟩
  | succ k ih =>
    obtain ⟨f, f', h1, h2, h3⟩ := ih h.fine (fine_conforming hc)
    refine ⟨f, f', ?_, ?_, h3⟩
    · rw [refineN, refine_ok hc]; exact h1
    · rw [refineN, refine_ok (h.conforming hc)]; exact h2

theorem norm_bnd (l : List (Edge × Bd)) : l.filter (fun x => x.2.bnd) = (l.map norm).filter (fun x => x.2.bnd) := by
  induction l with
  | nil => rfl
  | cons x xs ih =>
    cases hb : x.2.bnd
    · simp [norm, hb, Bd.inner, ih]
    · simp [norm, hb, ih]

theorem build_ok (junk k : Nat) (m : Mesh K) (h : Conforming m) :
    ∃ ms cs, build junk k m = .ok (ms, cs) ∧ ms.length = k + 1 ∧ cs.length = k ∧ ms[0]? = some m ∧
      (∀ (l : Nat) (m' : Mesh K), ms[l]? = some m' → Conforming m' ∧ m'.tris.length = 4 ^ l * m.tris.length ∧
        ∃ f, refineN l m = .ok f ∧ Same f m') ∧
      (∀ (l : Nat) (a b : Mesh K) (c : List (List Nat)), ms[l]? = some a → ms[l + 1]? = some b → cs[l]? = some c →
        Nested a b c) := by
  induction k generalizing m with
  | zero =>
    refine ⟨[m], [], rfl, rfl, rfl, rfl, ?_, by simp⟩
    intro l m' hl
    cases l with
    | zero =>
      simp only [List.getElem?_cons_zero, Option.some.injEq] at hl
      subst hl
      exact ⟨h, by simp, m, rfl, Same.refl m⟩
    | succ l => simp at hl
  | succ k ih =>
    obtain ⟨ms, cs, h1, h2, h3, h4, h5, h6⟩ := ih (next junk m) (next_conforming junk m h)
    refine ⟨m :: ms, (m.tris.map fun t => (kids (keys m) m.points.length t).map (pos (TriRefine.fine m).tris)) :: cs,
      ?_, by simp [h2], by simp [h3], rfl, ?_, ?_⟩
    · rw [build, buildNext_ok junk m h]
      simp only [Outcome.bind_ok]
      rw [c2f_ok junk m h]
      simp only [Outcome.bind_ok]
      rw [h1]
      rfl
    · intro l m' hl
      cases l with
      | zero =>
        simp only [List.getElem?_cons_zero, Option.some.injEq] at hl
        subst hl
        exact ⟨h, by simp, m, rfl, Same.refl m⟩
      | succ l =>
        simp only [List.getElem?_cons_succ] at hl
        obtain ⟨g1, g2, f, g3, g4⟩ := h5 l m' hl
        refine ⟨g1, ?_, ?_⟩
        · rw [g2, show (next junk m).tris = (TriRefine.fine m).tris from rfl, fine_tris_length, Nat.pow_succ]
          ring
        · obtain ⟨f1, f2, e1, e2, e3⟩ := refineN_same l (same_next junk m) (fine_conforming h)
          rw [g3] at e2
          cases e2
          refine ⟨f1, ?_, e3.trans g4⟩
          rw [refineN, refine_ok h]; exact e1
    · intro l a b c ha hb hc
      cases l with
      | zero =>
        simp only [List.getElem?_cons_zero, List.getElem?_cons_succ, Option.some.injEq] at ha hb hc
        rw [h4] at hb
        simp only [Option.some.injEq] at hb
        subst ha hb hc
        exact nested_next junk m h
      | succ l =>
        simp only [List.getElem?_cons_succ] at ha hb hc
        exact h6 l a b c ha hb hc

end
end Verif.Hierarchy
