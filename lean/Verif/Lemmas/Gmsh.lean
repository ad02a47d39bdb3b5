import Verif.Lemmas.MeshFile
import Verif.Spec.Gmsh
/-! Auxiliary facts about the GMSH loaders. -/
namespace Verif.Gmsh
open Verif.Lookup Verif.MeshTopo Verif.MeshFile
open Verif.Spec (SubSimplex Collects occurrences)
open Verif.Spec.Gmsh (Contents Returns Corners Proper listed around FaceAs FacesAs CellsAs)

/-! ### Loops and tables -/

theorem traverse_ok {α β : Type} (f : α → Outcome β) (g : α → β) (l : List α) (h : ∀ x ∈ l, f x = .ok (g x)) :
    traverse f l = .ok (l.map g) := by
  induction l with
  | nil => rfl
  | cons x xs ih =>
    rw [traverse, h x (by simp), Outcome.bind_ok, ih fun y hy => h y (List.mem_cons_of_mem _ hy), Outcome.bind_ok]
    rfl

theorem traverse_forall₂ {α β γ : Type} (f : α → Outcome γ) (g : β → γ) (l : List α) (m : List β)
    (h : List.Forall₂ (fun x y => f x = .ok (g y)) l m) : traverse f l = .ok (m.map g) := by
  induction h with
  | nil => rfl
  | cons hx _ ih => rw [traverse, hx, Outcome.bind_ok, ih, Outcome.bind_ok]; rfl

theorem flatten_length {α : Type} (k : Nat) (L : List (List α)) (h : ∀ l ∈ L, l.length = k) :
    L.flatten.length = k * L.length := by
  induction L with
  | nil => simp
  | cons x xs ih =>
    rw [List.flatten_cons, List.length_append, h x (by simp), ih fun l hl => h l (List.mem_cons_of_mem _ hl),
      List.length_cons, Nat.mul_add]
    omega

theorem flatten_get {α : Type} (k : Nat) (L : List (List α)) (h : ∀ l ∈ L, l.length = k) (i j : Nat) (l : List α)
    (hi : L[i]? = some l) (hj : j < k) : L.flatten[k * i + j]? = l[j]? := by
  induction L generalizing i with
  | nil => simp at hi
  | cons x xs ih =>
    have hx := h x (by simp)
    rw [List.flatten_cons]
    cases i with
    | zero =>
      simp only [List.getElem?_cons_zero, Option.some.injEq] at hi
      subst hi
      rw [List.getElem?_append_left (by omega)]
      congr 1
      omega
    | succ i =>
      rw [List.getElem?_append_right (by rw [hx, Nat.mul_add]; omega), hx,
        show k * (i + 1) + j - k = k * i + j by rw [Nat.mul_add]; omega]
      exact ih (fun l hl => h l (List.mem_cons_of_mem _ hl)) i (by simpa using hi)

theorem fold_set_other (l : List (Nat × Nat)) (t0 : List (Option Nat)) (t : Nat) (h : t ∉ l.map Prod.fst) :
    (l.foldl (fun t x => t.set x.1 (some x.2)) t0)[t]? = t0[t]? := by
  induction l generalizing t0 with
  | nil => rfl
  | cons x xs ih =>
    simp only [List.map_cons, List.mem_cons, not_or] at h
    rw [List.foldl_cons, ih _ h.2, List.getElem?_set_ne (Ne.symm h.1)]

theorem fold_set_mem (l : List (Nat × Nat)) (t0 : List (Option Nat)) (t i : Nat) (hn : (l.map Prod.fst).Nodup)
    (hm : (t, i) ∈ l) (ht : t < t0.length) :
    (l.foldl (fun t x => t.set x.1 (some x.2)) t0)[t]? = some (some i) := by
  induction l generalizing t0 with
  | nil => simp at hm
  | cons x xs ih =>
    simp only [List.map_cons, List.nodup_cons] at hn
    rw [List.foldl_cons]
    rcases List.mem_cons.1 hm with h | h
    · subst h
      rw [fold_set_other _ _ _ hn.1]
      simp [ht]
    · exact ih _ hn.2 h (by simpa using ht)

theorem le_maxtag (tags : List Nat) (a : Nat) : a ≤ tags.foldl (fun m t => max m (t + 1)) a ∧
    ∀ t ∈ tags, t < tags.foldl (fun m t => max m (t + 1)) a := by
  induction tags generalizing a with
  | nil => simp
  | cons x xs ih =>
    obtain ⟨h1, h2⟩ := ih (max a (x + 1))
    rw [List.foldl_cons]
    refine ⟨le_trans (le_max_left _ _) h1, fun t ht => ?_⟩
    rcases List.mem_cons.1 ht with rfl | ht
    · exact lt_of_lt_of_le (lt_of_lt_of_le (Nat.lt_succ_self _) (le_max_right _ _)) h1
    · exact h2 t ht

theorem tagTable_get (tags : List Nat) (hn : tags.Nodup) (t : Nat) (ht : t ∈ tags) :
    (tagTable tags)[t]? = some (some (tags.idxOf t)) := by
  unfold tagTable
  apply fold_set_mem
  · rw [List.zipIdx_map_fst]; exact hn
  · rw [List.mk_mem_zipIdx_iff_getElem?]
    exact List.getElem?_idxOf ht
  · simpa using (le_maxtag tags 0).2 t ht

section
variable {K : Type}

theorem read_some {α : Type} (v : List α) (i : Nat) (x : α) (h : v[i]? = some x) : read v i = .ok x := by
  rw [read, h]

theorem points_ok (dim : Nat) (hd : dim ≤ 3) (g : Model K) (m : Contents K) (ht : g.nodeTags = m.nodes.map Prod.fst)
    (hc : g.coords = (m.nodes.map Prod.snd).flatten) (h3 : ∀ x ∈ m.nodes, x.2.length = 3) :
    points dim g = .ok (m.nodes.map fun x => x.2.take dim) := by
  have hl : ∀ l ∈ m.nodes.map Prod.snd, l.length = 3 := by
    intro l hl
    obtain ⟨x, hx, rfl⟩ := List.mem_map.1 hl
    exact h3 x hx
  unfold points
  rw [ht, List.length_map, hc]
  have : ∀ i ∈ List.range m.nodes.length,
      traverse (fun j => read (m.nodes.map Prod.snd).flatten (3 * i + j)) (List.range dim) =
      .ok ((m.nodes.map fun x => x.2.take dim).getD i []) := by
    intro i hi
    have hi := List.mem_range.1 hi
    have hx : (m.nodes.map Prod.snd)[i]? = some m.nodes[i].2 := by simp [hi]
    have h3' := h3 m.nodes[i] (List.getElem_mem hi)
    rw [traverse_forall₂ _ id _ (m.nodes[i].2.take dim)]
    · simp [hi]
    · rw [List.forall₂_iff_get]
      refine ⟨by simp [h3', hd], fun j hj hj' => ?_⟩
      have hj3 : j < dim := by simpa using hj
      rw [List.get_eq_getElem, List.get_eq_getElem, List.getElem_range]
      apply read_some
      rw [flatten_get 3 _ hl i j _ hx (by omega)]
      simp [h3', show j < 3 by omega]
  rw [traverse_ok _ _ _ this]
  congr 1
  apply List.ext_getElem
  · simp
  · intro i h1 h2
    have hi : i < m.nodes.length := by simpa using h2
    simp [hi]

/-! ### Elements -/

theorem corner_ok (tags : List Nat) (hn : tags.Nodup) (l : List Nat) (i t : Nat) (h : l[i]? = some t) (ht : t ∈ tags) :
    corner (tagTable tags) l i = .ok (tags.idxOf t) := by
  rw [corner, read_some l i t h, Outcome.bind_ok, tagTable_get tags hn t ht]

theorem corners_ok (tags : List Nat) (hn : tags.Nodup) (k : Nat) (L : List (List Nat)) (hL : ∀ e ∈ L, e.length = k)
    (i : Nat) (e : List Nat) (hi : L[i]? = some e) (he : ∀ t ∈ e, t ∈ tags) :
    corners (tagTable tags) L.flatten k (k * i) = .ok (e.map tags.idxOf) := by
  have hk := hL e (List.mem_of_getElem? hi)
  unfold corners
  rw [traverse_forall₂ _ tags.idxOf _ e]
  rw [List.forall₂_iff_get]
  refine ⟨by simp [hk], fun j hj hj' => ?_⟩
  rw [List.get_eq_getElem, List.get_eq_getElem, List.getElem_range]
  apply corner_ok tags hn _ _ _ _ (he _ (List.getElem_mem hj'))
  rw [flatten_get k L hL i j e hi (by omega), List.getElem?_eq_getElem]

theorem elements_ok (tags : List Nat) (hn : tags.Nodup) (n : Nat) (b : Block) (B : List (List Nat)) (hB : B ≠ [])
    (hl : b.elemTags.length = B.length) (hf : b.nodeTags = B.flatten)
    (he : ∀ e ∈ B, e.length = n ∧ ∀ t ∈ e, t ∈ tags) :
    elements (tagTable tags) n b = .ok (B.map fun e => e.map tags.idxOf) := by
  have hpos : 0 < B.length := List.length_pos_iff.2 hB
  have hlen := flatten_length n B fun e h => (he e h).1
  have hdiv : n * B.length / B.length = n := Nat.mul_div_cancel _ hpos
  unfold elements
  rw [if_neg (by omega), hf, hlen, hl]
  dsimp only
  rw [hdiv, if_neg (by rw [Nat.mul_comm]; simp)]
  have : ∀ i ∈ List.range B.length, corners (tagTable tags) B.flatten n (n * i) =
      .ok ((B.map fun e => e.map tags.idxOf).getD i []) := by
    intro i hi
    have hi := List.mem_range.1 hi
    rw [corners_ok tags hn n B (fun e h => (he e h).1) i B[i] (List.getElem?_eq_getElem hi)
      (he _ (List.getElem_mem hi)).2]
    simp [hi]
  rw [traverse_ok _ _ _ this]
  congr 1
  apply List.ext_getElem
  · simp
  · intro i h1 h2
    have hi : i < B.length := by simpa using h2
    simp [hi]

/-- The cells as `gmsh_get_elements` collects them. -/
def collected (m : Contents K) : List (List Nat × Nat × Nat) :=
  m.regions.flatMap fun R => R.2.flatMap fun B => B.zipIdx.map fun e => (e.1.map m.pos, e.2, R.1)

theorem regions_ok (S : Shape) (g : Model K) (m : Contents K) (hr : Returns S.sides g m) (hp : Proper S.nc S.nf m) :
    ∃ l, traverse (regionCells (tagTable g.nodeTags) S) g.regions = .ok l ∧ l.flatten = collected m := by
  refine ⟨m.regions.map fun R => R.2.flatMap fun B => B.zipIdx.map fun e => (e.1.map m.pos, e.2, R.1), ?_, rfl⟩
  apply traverse_forall₂
  have hreg := hr.regions
  have hprop : ∀ R ∈ m.regions, ∀ B ∈ R.2, B ≠ [] ∧ ∀ e ∈ B, Corners m S.nc e :=
    fun R hR B hB => ⟨hp.block R hR B hB, hp.elem R hR B hB⟩
  generalize g.regions = rs0 at hreg ⊢
  generalize m.regions = RS at hreg hprop ⊢
  induction hreg with
  | nil => exact List.Forall₂.nil
  | @cons r R rs RS' h _ ih =>
    refine List.Forall₂.cons ?_ (ih fun R hR => hprop R (List.mem_cons_of_mem _ hR))
    have hR := hprop R (by simp)
    unfold regionCells
    rw [traverse_forall₂ _ (fun B => B.zipIdx.map fun e => (e.1.map m.pos, e.2, R.1)) r.blocks R.2]
    · rfl
    · obtain ⟨htag, hb⟩ := h
      generalize r.blocks = bs0 at hb ⊢
      generalize R.2 = BS at hb hR ⊢
      induction hb with
      | nil => exact List.Forall₂.nil
      | @cons b B bs BS' hb _ ihb =>
        refine List.Forall₂.cons ?_ (ihb fun B hB => hR B (List.mem_cons_of_mem _ hB))
        have hB := hR B (by simp)
        rw [hr.tags, elements_ok _ hp.tags S.nc b B hB.1 hb.1 hb.2 fun e he => ⟨(hB.2 e he).1, (hB.2 e he).2.2⟩,
          Outcome.bind_ok, htag]
        congr 1
        rw [List.zipIdx_map, List.map_map]
        rfl

theorem collected_eq (m : Contents K) :
    (collected m).map (fun c => (c.2.2, c.1)) = m.cells.map fun c => (c.1.2, c.2) := by
  unfold collected Contents.cells
  rw [List.map_flatMap, List.map_flatMap]
  have hz : ∀ (RS : List (Nat × List (List (List Nat)))) (k : Nat),
      (RS.flatMap fun R => (R.2.flatMap fun B => B.zipIdx.map fun e => (e.1.map m.pos, e.2, R.1)).map
        fun c => (c.2.2, c.1)) =
      (RS.zipIdx k).flatMap fun R => (R.1.2.flatten.map fun e => ((R.2, R.1.1), e.map m.pos)).map
        fun c => (c.1.2, c.2) := by
    intro RS
    induction RS with
    | nil => intro k; rfl
    | cons R RS ih =>
      intro k
      rw [List.flatMap_cons, List.zipIdx_cons, List.flatMap_cons, ih (k + 1)]
      congr 1
      have hB : ∀ BS : List (List (List Nat)),
          (BS.flatMap fun B => B.zipIdx.map fun e => (e.1.map m.pos, e.2, R.1)).map (fun c => (c.2.2, c.1)) =
          (BS.flatten.map fun e => ((k, R.1), e.map m.pos)).map fun c => (c.1.2, c.2) := by
        intro BS
        induction BS with
        | nil => rfl
        | cons B BS ihB =>
          rw [List.flatMap_cons, List.map_append, List.flatten_cons, List.map_append, List.map_append, ihB]
          congr 1
          rw [List.map_map, List.map_map]
          conv_rhs => rw [← List.zipIdx_map_fst 0 B, List.map_map]
          rfl
      exact hB R.2
  exact hz m.regions 0

theorem collected_fst (m : Contents K) : (collected m).map Prod.fst = m.cells.map Prod.snd := by
  have := congrArg (List.map Prod.snd) (collected_eq m)
  rw [List.map_map, List.map_map] at this
  exact this

theorem pos_injOn (m : Contents K) (e : List Nat) (he : e.Nodup) (ht : ∀ t ∈ e, t ∈ m.nodes.map Prod.fst) :
    (e.map m.pos).Nodup := by
  refine List.Nodup.map_on ?_ he
  intro x hx y hy h
  exact (List.idxOf_inj (ht x hx)).1 h

theorem cells_ok {nc nf : Nat} (m : Contents K) (hp : Proper nc nf m) (c : (Nat × Nat) × List Nat) (hc : c ∈ m.cells) :
    c.2.length = nc ∧ c.2.Nodup := by
  unfold Contents.cells at hc
  obtain ⟨R, hR, hc⟩ := List.mem_flatMap.1 hc
  obtain ⟨e, he, rfl⟩ := List.mem_map.1 hc
  obtain ⟨B, hB, he⟩ := List.mem_flatten.1 he
  have hR' : R.1 ∈ m.regions := by
    have := List.mem_map_of_mem (f := Prod.fst) hR
    rwa [List.zipIdx_map_fst] at this
  have := hp.elem R.1 hR' B hB e he
  exact ⟨by simpa using this.1, pos_injOn m e this.2.1 this.2.2⟩

theorem sides_ok {nc nf : Nat} (m : Contents K) (hp : Proper nc nf m) (c : (Nat × Nat) × List Nat) (hc : c ∈ m.sides) :
    c.2.length = nf ∧ c.2.Nodup := by
  unfold Contents.sides at hc
  obtain ⟨R, hR, hc⟩ := List.mem_flatMap.1 hc
  obtain ⟨e, he, rfl⟩ := List.mem_map.1 hc
  have hR' : R.1 ∈ m.patches := by
    have := List.mem_map_of_mem (f := Prod.fst) hR
    rwa [List.zipIdx_map_fst] at this
  have := hp.side R.1 hR' e he
  exact ⟨by simpa using this.1, pos_injOn m e this.2.1 this.2.2⟩


/-! ### The boundary table -/

theorem setSide_ok (faces : List (List Nat)) (hs : faces.Pairwise (· < ·)) (d : BDesc) (f : List Nat) (k : Nat)
    (hk : faces[k]? = some f) (info : List BDesc) : setSide faces d f info = .ok (info.set k d) := by
  have h := (find_iff faces hs f k).2 hk
  unfold findElementId at h
  dsimp only at h
  unfold setSide
  dsimp only
  have hlb : lowerBound faces f = k := by
    split at h
    · split at h
      · simpa [Ident.Ident.mk'] using h
      · simp at h
    · simp at h
  rw [hlb, hk]
  simp

theorem setSide_throws (faces : List (List Nat)) (d : BDesc) (f : List Nat) (hf : f ∉ faces) (info : List BDesc) :
    (setSide faces d f info).Throws := by
  unfold setSide
  dsimp only
  split
  · trivial
  · next y hy =>
    rw [if_neg]
    · trivial
    · rintro rfl; exact hf (List.mem_of_getElem? hy)

/-- The sides set one after the other. -/
def setAll (faces : List (List Nat)) : List (List Nat × BDesc) → List BDesc → Outcome (List BDesc)
  | [], info => .ok info
  | x :: xs, info => (setSide faces x.2 x.1 info).bind fun info => setAll faces xs info

theorem setAll_append (faces : List (List Nat)) (a b : List (List Nat × BDesc)) (info : List BDesc) :
    setAll faces (a ++ b) info = (setAll faces a info).bind fun info => setAll faces b info := by
  induction a generalizing info with
  | nil => rfl
  | cons x xs ih =>
    rw [List.cons_append, setAll, setAll]
    cases setSide faces x.2 x.1 info with
    | ok i => simp only [Outcome.bind_ok, ih]
    | throws _ => rfl
    | ub _ => rfl

theorem setAll_throws (faces : List (List Nat)) (hs : faces.Pairwise (· < ·)) (xs : List (List Nat × BDesc))
    (hx : ¬ ∀ x ∈ xs, x.1 ∈ faces) (info : List BDesc) : (setAll faces xs info).Throws := by
  induction xs generalizing info with
  | nil => simp at hx
  | cons x xs ih =>
    rw [setAll]
    by_cases hm : x.1 ∈ faces
    · obtain ⟨k, hk⟩ := List.mem_iff_getElem?.1 hm
      rw [setSide_ok faces hs x.2 x.1 k hk, Outcome.bind_ok]
      refine ih (fun h => hx fun y hy => ?_) _
      rcases List.mem_cons.1 hy with rfl | hy
      · exact hm
      · exact h y hy
    · have := setSide_throws faces x.2 x.1 hm info
      cases h : setSide faces x.2 x.1 info with
      | ok _ => rw [h] at this; exact this.elim
      | throws _ => trivial
      | ub _ => rw [h] at this; exact this.elim

theorem setAll_spec (faces : List (List Nat)) (hs : faces.Pairwise (· < ·)) (xs : List (List Nat × BDesc))
    (info : List BDesc) (hl : info.length = faces.length) (hx : ∀ x ∈ xs, x.1 ∈ faces) :
    ∃ r, setAll faces xs info = .ok r ∧ r.length = faces.length ∧
    ∀ (i : Nat) (f : List Nat), faces[i]? = some f → r[i]? =
      match (xs.filter fun x => decide (x.1 = f)).getLast? with
      | some x => some x.2
      | none => info[i]? := by
  induction xs generalizing info with
  | nil => exact ⟨info, rfl, hl, fun i f _ => rfl⟩
  | cons x xs ih =>
    obtain ⟨k, hk⟩ := List.mem_iff_getElem?.1 (hx x (by simp))
    have hkl : k < faces.length := (List.getElem?_eq_some_iff.1 hk).1
    obtain ⟨r, h1, h2, h3⟩ := ih (info.set k x.2) (by simpa using hl) (fun y hy => hx y (List.mem_cons_of_mem _ hy))
    refine ⟨r, by rw [setAll, setSide_ok faces hs x.2 x.1 k hk, Outcome.bind_ok, h1], h2, fun i f hi => ?_⟩
    rw [h3 i f hi]
    have key : k = i ↔ x.1 = f := by
      constructor
      · rintro rfl; rw [hk] at hi; simpa using hi
      · rintro rfl
        have := ((find_iff faces hs x.1 i).2 hi).symm.trans ((find_iff faces hs x.1 k).2 hk)
        simp only [Ident.Ident.mk', Prod.mk.injEq, Ident.Ident.mk.injEq] at this
        exact this.2.1.symm
    by_cases hxf : x.1 = f
    · have hki := key.2 hxf
      subst hki
      simp only [List.filter_cons, hxf, decide_true, if_true]
      cases hg : (xs.filter fun x => decide (x.1 = f)).getLast? with
      | none =>
        rw [List.getLast?_eq_none_iff] at hg
        rw [hg]
        simp [hl, hkl]
      | some y =>
        rw [List.getLast?_cons, hg]
        rfl
    · have hne : k ≠ i := fun h => hxf (key.1 h)
      simp only [List.filter_cons, hxf, decide_false, Bool.false_eq_true, if_false]
      rw [List.getElem?_set_ne hne]

theorem sideLoop_ok (tags : List Nat) (hn : tags.Nodup) (faces : List (List Nat)) (d : BDesc) (k : Nat)
    (L : List (List Nat)) (hL : ∀ f ∈ L, f.length = k ∧ ∀ t ∈ f, t ∈ tags) (r n : Nat) (hr : r + n = L.length)
    (info : List BDesc) : sideLoop (tagTable tags) faces d k L.flatten (List.range' r n) info =
      setAll faces ((L.drop r).map fun f => (simplex (f.map tags.idxOf), d)) info := by
  induction n generalizing r info with
  | zero =>
    rw [List.drop_eq_nil_of_le (by omega)]
    rfl
  | succ n ih =>
    have hlt : r < L.length := by omega
    rw [List.range'_succ, sideLoop, corners_ok tags hn k L (fun f h => (hL f h).1) r L[r]
      (List.getElem?_eq_getElem hlt) (hL _ (List.getElem_mem hlt)).2, Outcome.bind_ok,
      List.drop_eq_getElem_cons hlt, List.map_cons, setAll]
    congr 1
    funext info
    exact ih (r + 1) (by omega) info

theorem turns_mul (n k : Nat) (hk : 0 < k) : turns (k * n) k = n := by
  unfold turns
  rw [show k * n + k - 1 = (k - 1) + k * n by omega, Nat.add_mul_div_left _ _ hk, Nat.div_eq_of_lt (by omega)]
  omega

/-- The sides with their descriptors. -/
def wanted (m : Contents K) : List (List Nat × BDesc) :=
  m.sides.map fun x => (simplex x.2, BDesc.mk3 x.1.1 x.1.2 true)

theorem patches_ok (S : Shape) (hS : 0 < S.nf) (g : Model K) (m : Contents K) (hr : Returns S.sides g m)
    (hp : Proper S.nc S.nf m) (faces : List (List Nat)) (info : List BDesc) :
    patchLoop (tagTable g.nodeTags) S faces g.patches 0 info = setAll faces (wanted m) info := by
  unfold wanted Contents.sides
  have hpat := hr.patches
  have hprop : ∀ P ∈ m.patches, ∀ f ∈ P.2, f.length = S.nf ∧ ∀ t ∈ f, t ∈ m.nodes.map Prod.fst :=
    fun P hP f hf => ⟨(hp.side P hP f hf).1, (hp.side P hP f hf).2.2⟩
  generalize g.patches = ps at hpat ⊢
  generalize m.patches = PS at hpat hprop ⊢
  generalize (0 : Nat) = b
  induction hpat generalizing b info with
  | nil => rfl
  | @cons p P ps PS' h _ ih =>
    obtain ⟨htag, s, hs, hsel⟩ := h
    have hP := hprop P (by simp)
    rw [patchLoop, hs]
    dsimp only
    rw [hsel, flatten_length S.nf P.2 fun f hf => (hP f hf).1, turns_mul _ _ hS, List.range_eq_range', hr.tags,
      sideLoop_ok _ hp.tags faces _ S.nf P.2 hP 0 P.2.length (by omega), List.zipIdx_cons, List.flatMap_cons,
      List.map_append, setAll_append, List.drop_zero, List.map_map, htag]
    congr 1
    funext info
    rw [← hr.tags]
    exact ih info (fun P hP => hprop P (List.mem_cons_of_mem _ hP)) (b + 1)

theorem listed_wanted (m : Contents K) (hn : ∀ x ∈ m.sides, x.2.Nodup) (f : List Nat) (hf : f.Pairwise (· < ·)) :
    ((wanted m).filter fun x => decide (x.1 = f)).getLast?.map Prod.snd =
      (listed m.sides f).map fun x => BDesc.mk3 x.1 x.2 true := by
  unfold listed wanted
  rw [List.filter_map, getLast?_map', Option.map_map, Option.map_map]
  have : (m.sides.filter ((fun x : List Nat × BDesc => decide (x.1 = f)) ∘
      fun x => (simplex x.2, BDesc.mk3 x.1.1 x.1.2 true))) = m.sides.filter fun x => decide (x.2.Perm f) := by
    apply List.filter_congr
    intro x hx
    simp only [Function.comp]
    exact decide_eq_decide.2 (simplex_eq_iff (hn x hx) hf)
  rw [this]
  rfl

/-- The descriptor of a face with the given number and tag. -/
def descOf : Option (Nat × Nat) → BDesc
  | some n => BDesc.mk3 n.1 n.2 true
  | none => BDesc.default

theorem setAll_replicate (m : Contents K) (hn : ∀ x ∈ m.sides, x.2.Nodup) (faces : List (List Nat))
    (hs : faces.Pairwise (· < ·)) (hi : ∀ f ∈ faces, f.Pairwise (· < ·)) (hx : ∀ x ∈ m.sides, simplex x.2 ∈ faces) :
    setAll faces (wanted m) (List.replicate faces.length BDesc.default) =
      .ok (faces.map fun f => descOf (listed m.sides f)) := by
  obtain ⟨r, h1, h2, h3⟩ := setAll_spec faces hs (wanted m) (List.replicate faces.length BDesc.default) (by simp) (by
    intro x hx'
    obtain ⟨y, hy, rfl⟩ := List.mem_map.1 hx'
    exact hx y hy)
  rw [h1]
  congr 1
  refine List.ext_getElem? fun i => ?_
  by_cases hil : i < faces.length
  · have hfi : faces[i]? = some faces[i] := List.getElem?_eq_getElem hil
    have hw := listed_wanted m hn faces[i] (hi _ (List.getElem_mem hil))
    rw [h3 i faces[i] hfi, List.getElem?_map, hfi]
    simp only [Option.map_some]
    cases hg : ((wanted m).filter fun x => decide (x.1 = faces[i])).getLast? with
    | none =>
      rw [hg] at hw
      cases hl : listed m.sides faces[i] with
      | none => simp [descOf, hil]
      | some x => rw [hl] at hw; simp at hw
    | some x =>
      rw [hg] at hw
      cases hl : listed m.sides faces[i] with
      | none => rw [hl] at hw; simp at hw
      | some y => rw [hl] at hw; simpa [descOf] using hw
  · rw [List.getElem?_eq_none (by omega), List.getElem?_eq_none (by simp; omega)]

end

/-! ### Shapes -/

/-- The faces of the shape are the subsets of corners of the right size. -/
structure ShapeOk (S : Shape) : Prop where
  pos : 0 < S.nf
  pushed : ∀ p e, p.length = S.nc → p.Nodup → (e ∈ S.pushed p ↔ SubSimplex S.nf e p)
  count : ∀ [BEq (List Nat)] [LawfulBEq (List Nat)] (p f : List Nat), p.length = S.nc → p.Nodup →
    (S.facesOf (simplex p)).count f = if SubSimplex S.nf f p then 1 else 0

theorem tet_ok : ShapeOk tet :=
  ⟨by decide, fun p e hl hp => mem_tetSurfaces p e hl hp, fun p f hl hp => tetFaces_count p f hl hp⟩

theorem pushedEdges_perm (p : List Nat) : (pushedEdges p).Perm (triEdges p) :=
  .cons _ (.swap _ _ _)

theorem tri_count [BEq (List Nat)] [LawfulBEq (List Nat)] (p f : List Nat) (hl : p.length = 3) (hp : p.Nodup) :
    (triFaces (simplex p)).count f = if SubSimplex 2 f p then 1 else 0 := by
  have hsl : (simplex p).length = 3 := (simplex_perm p).length_eq.trans hl
  have hsn : (simplex p).Nodup := (simplex_perm p).nodup_iff.2 hp
  have hss := simplex_sorted p hp
  have hmem : f ∈ triFaces (simplex p) ↔ SubSimplex 2 f p := by
    have := mem_triEdges (simplex p) f hsl hsn
    unfold SubSimplex at this ⊢
    simp only [(simplex_perm p).mem_iff] at this
    exact this
  have hnd : (triFaces (simplex p)).Nodup := by
    revert hss
    match simplex p, hsl with
    | [a, b, c], _ =>
      intro hss
      have h : a < b ∧ b < c := by
        simp only [List.pairwise_cons, List.mem_cons, List.not_mem_nil, or_false] at hss
        exact ⟨hss.1 b (by simp), hss.2.1 c rfl⟩
      simp only [triFaces, pick, List.map_cons, List.map_nil, List.getD_cons_zero, List.getD_cons_succ]
      rw [(pair_simplex h.1).1, (pair_simplex h.2).1, (pair_simplex (h.1.trans h.2)).1]
      simp
      omega
  split
  · next h => exact List.count_eq_one_of_mem hnd (hmem.2 h)
  · next h => exact List.count_eq_zero_of_not_mem fun h' => h (hmem.1 h')

theorem tri_ok : ShapeOk tri :=
  ⟨by decide, fun p e hl hp => (pushedEdges_perm p).mem_iff.trans (mem_triEdges p e hl hp), tri_count⟩

theorem count_around [BEq (List Nat)] [LawfulBEq (List Nat)] (S : Shape) (hS : ShapeOk S)
    (cells : List ((Nat × Nat) × List Nat)) (hc : ∀ c ∈ cells, c.2.length = S.nc ∧ c.2.Nodup) (f : List Nat) :
    ((cells.map fun c => simplex c.2).flatMap S.facesOf).count f =
      if f.Pairwise (· < ·) ∧ f.length = S.nf then around cells f else 0 := by
  unfold around
  induction cells with
  | nil => simp
  | cons c cells ih =>
    rw [List.map_cons, List.flatMap_cons, List.count_append,
      ih fun x hx => hc x (List.mem_cons_of_mem _ hx),
      hS.count c.2 f (hc c (by simp)).1 (hc c (by simp)).2, List.countP_cons]
    by_cases h1 : f.Pairwise (· < ·) ∧ f.length = S.nf
    · by_cases h2 : ∀ i ∈ f, i ∈ c.2
      · rw [if_pos h1, if_pos h1, if_pos (show SubSimplex S.nf f c.2 from ⟨h1.1, h1.2, h2⟩),
          if_pos (by simpa using h2)]; omega
      · rw [if_pos h1, if_pos h1, if_neg (fun h : SubSimplex S.nf f c.2 => h2 h.2.2),
          if_neg (by simpa using h2)]; omega
    · rw [if_neg h1, if_neg h1, if_neg (fun h : SubSimplex S.nf f c.2 => h1 ⟨h.1, h.2.1⟩)]

theorem around_count (S : Shape) (hS : ShapeOk S) (cells : List ((Nat × Nat) × List Nat))
    (hc : ∀ c ∈ cells, c.2.length = S.nc ∧ c.2.Nodup) (f : List Nat) :
    occurrences (cells.map fun c => simplex c.2) S.facesOf f =
      if f.Pairwise (· < ·) ∧ f.length = S.nf then around cells f else 0 :=
  @count_around instBEqOfDecidableEq _ S hS cells hc f

/-! ### The whole loader -/

section
variable {K : Type}

/-- The faces found. -/
def facesFound (S : Shape) (m : Contents K) : List (List Nat) :=
  MeshFile.sortUniq ((m.cells.map Prod.snd).flatMap S.pushed)

theorem facesFound_collects (S : Shape) (hS : ShapeOk S) (m : Contents K) (hp : Proper S.nc S.nf m) :
    Collects (facesFound S m) fun e => ∃ c ∈ m.cells, SubSimplex S.nf e c.2 := by
  refine Collects.congr (collects_sortUniq _) fun e => ?_
  rw [List.mem_flatMap]
  constructor
  · rintro ⟨p, hp', he⟩
    obtain ⟨c, hc, rfl⟩ := List.mem_map.1 hp'
    exact ⟨c, hc, (hS.pushed c.2 e (cells_ok m hp c hc).1 (cells_ok m hp c hc).2).1 he⟩
  · rintro ⟨c, hc, he⟩
    exact ⟨c.2, List.mem_map_of_mem hc, (hS.pushed c.2 e (cells_ok m hp c hc).1 (cells_ok m hp c hc).2).2 he⟩

theorem side_found (S : Shape) (hS : ShapeOk S) (m : Contents K) (hp : Proper S.nc S.nf m)
    (x : (Nat × Nat) × List Nat) (hx : x ∈ m.sides) :
    simplex x.2 ∈ facesFound S m ↔ ∃ c ∈ m.cells, ∀ i ∈ x.2, i ∈ c.2 := by
  rw [(facesFound_collects S hS m hp).2]
  have hok := sides_ok m hp x hx
  constructor
  · rintro ⟨c, hc, h⟩
    exact ⟨c, hc, fun i hi => h.2.2 i ((simplex_perm _).mem_iff.2 hi)⟩
  · rintro ⟨c, hc, h⟩
    exact ⟨c, hc, simplex_sorted _ hok.2, (simplex_perm _).length_eq.trans hok.1,
      fun i hi => h i ((simplex_perm _).mem_iff.1 hi)⟩

theorem core_eq (srt : List (List Nat × Nat × Nat) → List (List Nat × Nat × Nat)) (S : Shape) (hS : ShapeOk S)
    (g : Model K) (m : Contents K) (hr : Returns S.sides g m) (hp : Proper S.nc S.nf m) :
    core srt S g =
      (setAll (facesFound S m) (wanted m) (List.replicate (facesFound S m).length BDesc.default)).bind fun info =>
      (Neighbours.markInternal ⟨(srt ((collected m).map fun c => (simplex c.1, c.2))).map Prod.fst, facesFound S m,
        S.facesOf, info⟩).bind fun info =>
      .ok ⟨m.cells.map Prod.snd, srt ((collected m).map fun c => (simplex c.1, c.2)), facesFound S m, info⟩ := by
  obtain ⟨l, h1, h2⟩ := regions_ok S g m hr hp
  unfold core
  dsimp only
  rw [h1, Outcome.bind_ok, h2, collected_fst, patches_ok S hS.pos g m hr hp]
  rfl

theorem sorted_perm (srt : List (List Nat × Nat × Nat) → List (List Nat × Nat × Nat)) (hs : IsSort srt)
    (m : Contents K) : ((srt ((collected m).map fun c => (simplex c.1, c.2))).map Prod.fst).Perm
      (m.cells.map fun c => simplex c.2) := by
  have h := ((hs ((collected m).map fun c => (simplex c.1, c.2))).1).map Prod.fst
  rw [List.map_map] at h
  have h' := congrArg (List.map simplex) (collected_fst m)
  rw [List.map_map, List.map_map] at h'
  exact h.trans (List.Perm.of_eq h')

theorem core_mesh (srt : List (List Nat × Nat × Nat) → List (List Nat × Nat × Nat)) (hs : IsSort srt) (S : Shape)
    (hS : ShapeOk S) (m : Contents K) (hp : Proper S.nc S.nf m) :
    (∀ c ∈ (srt ((collected m).map fun c => (simplex c.1, c.2))).map Prod.fst, ∀ f ∈ S.facesOf c, f ∈ facesFound S m) ∧
    ∀ f, occurrences ((srt ((collected m).map fun c => (simplex c.1, c.2))).map Prod.fst) S.facesOf f =
      if f.Pairwise (· < ·) ∧ f.length = S.nf then around m.cells f else 0 := by
  have hperm := sorted_perm srt hs m
  constructor
  · intro v hv f hf
    obtain ⟨c, hc, rfl⟩ := List.mem_map.1 (hperm.mem_iff.1 hv)
    have hcount := hS.count c.2 f (cells_ok m hp c hc).1 (cells_ok m hp c hc).2
    have hpos := List.count_pos_iff.2 hf
    rw [hcount] at hpos
    rw [(facesFound_collects S hS m hp).2]
    by_cases h : SubSimplex S.nf f c.2
    · exact ⟨c, hc, h⟩
    · rw [if_neg h] at hpos; omega
  · intro f
    rw [occurrences_perm hperm, around_count S hS m.cells fun c hc => cells_ok m hp c hc]

theorem core_ok (srt : List (List Nat × Nat × Nat) → List (List Nat × Nat × Nat)) (hs : IsSort srt) (S : Shape)
    (hS : ShapeOk S) (g : Model K) (m : Contents K) (hr : Returns S.sides g m) (hp : Proper S.nc S.nf m)
    (hb : ∀ f ∈ m.sides, ∃ c ∈ m.cells, ∀ i ∈ f.2, i ∈ c.2)
    (h2 : ∀ f : List Nat, f.length = S.nf → f.Nodup → around m.cells f ≤ 2) :
    ∃ c, core srt S g = .ok c ∧ c.raw = m.cells.map Prod.snd ∧
      Collects c.faces (fun e => ∃ c ∈ m.cells, SubSimplex S.nf e c.2) ∧ FacesAs m c.faces c.info ∧
      CellsAs m (c.cells.map Prod.fst) (c.cells.map fun c => c.2.2) ∧
      c.cells = srt ((collected m).map fun c => (simplex c.1, c.2)) := by
  have hcol := facesFound_collects S hS m hp
  have hsn : ∀ x ∈ m.sides, x.2.Nodup := fun x hx => (sides_ok m hp x hx).2
  have hinc : ∀ f ∈ facesFound S m, f.Pairwise (· < ·) := fun f hf => by
    obtain ⟨c, _, h⟩ := (hcol.2 f).1 hf
    exact h.1
  have hset := setAll_replicate m hsn (facesFound S m) hcol.1 hinc fun x hx => (side_found S hS m hp x hx).2 (hb x hx)
  obtain ⟨hmesh, hocc⟩ := core_mesh srt hs S hS m hp
  have hle : ∀ f, occurrences ((srt ((collected m).map fun c => (simplex c.1, c.2))).map Prod.fst) S.facesOf f ≤ 2 := by
    intro f
    rw [hocc]
    split
    · next h => exact h2 f h.2 (h.1.imp Nat.ne_of_lt)
    · omega
  obtain ⟨b, hb1, hb2, hb3⟩ := mark_ok ⟨(srt ((collected m).map fun c => (simplex c.1, c.2))).map Prod.fst,
    facesFound S m, S.facesOf, (facesFound S m).map fun f => descOf (listed m.sides f)⟩
    ⟨(Lookup.strictSorted_iff_pairwise _).2 hcol.1, by simp⟩ hmesh hle
  simp only [List.length_map] at hb2
  have hcore := core_eq srt S hS g m hr hp
  rw [hset, Outcome.bind_ok, hb1, Outcome.bind_ok] at hcore
  refine ⟨_, hcore, rfl, hcol, ⟨hb2, fun i f d hi hd => ?_⟩, ⟨?_, ?_, ?_⟩, rfl⟩
  · dsimp only at hi hd
    obtain ⟨hi1, rfl⟩ := List.getElem?_eq_some_iff.1 hi
    obtain ⟨hi2, rfl⟩ := List.getElem?_eq_some_iff.1 hd
    obtain ⟨h3, h4, h5, h6⟩ := hb3 i hi1 hi2 (by simpa using hi1)
    simp only [List.getElem_map] at h3 h4 h5 h6
    obtain ⟨c, _, hsub⟩ := (hcol.2 (facesFound S m)[i]).1 (List.getElem_mem hi1)
    rw [hocc, if_pos ⟨hsub.1, hsub.2.1⟩] at h3
    unfold FaceAs
    rw [h4, h5, h6, h3]
    cases listed m.sides (facesFound S m)[i] <;> simp [descOf, BDesc.mk3, BDesc.default]
  · dsimp only
    rw [List.pairwise_map]
    exact (hs _).2.imp fun h => List.not_lt.1 h
  · intro v hv
    obtain ⟨c, hc, rfl⟩ := List.mem_map.1 ((sorted_perm srt hs m).mem_iff.1 hv)
    exact simplex_sorted _ (cells_ok m hp c hc).2
  · obtain ⟨l, hl1, hl2⟩ := perm_map_right (hs ((collected m).map fun c => (simplex c.1, c.2))).1
    have hl3 := hl1.map fun c : List Nat × Nat × Nat => (c.2.2, c.1)
    rw [collected_eq] at hl3
    obtain ⟨l', hl4, hl5⟩ := perm_map_right hl3
    refine ⟨l', hl4, ?_, ?_⟩
    · dsimp only
      rw [hl2, List.map_map]
      have := congrArg (List.map Prod.fst) hl5
      rw [List.map_map, List.map_map] at this
      exact this
    · dsimp only
      rw [hl2, List.map_map]
      have h := congrArg (List.map Prod.snd) hl5
      rw [List.map_map, List.map_map] at h
      have h' : l'.map Prod.snd = l.map Prod.fst := h.symm
      rw [h', List.forall₂_map_left_iff, List.forall₂_map_right_iff, List.forall₂_same]
      exact fun c _ => simplex_perm _

theorem core_throws (srt : List (List Nat × Nat × Nat) → List (List Nat × Nat × Nat)) (S : Shape)
    (hS : ShapeOk S) (g : Model K) (m : Contents K) (hr : Returns S.sides g m) (hp : Proper S.nc S.nf m)
    (hb : ¬ ∀ f ∈ m.sides, ∃ c ∈ m.cells, ∀ i ∈ f.2, i ∈ c.2) : (core srt S g).Throws := by
  rw [core_eq srt S hS g m hr hp]
  have := setAll_throws (facesFound S m) (facesFound_collects S hS m hp).1 (wanted m) (fun h => hb fun x hx =>
    (side_found S hS m hp x hx).1 (h _ (List.mem_map_of_mem hx))) (List.replicate (facesFound S m).length BDesc.default)
  cases h : setAll (facesFound S m) (wanted m) (List.replicate (facesFound S m).length BDesc.default) with
  | ok _ => rw [h] at this; exact this.elim
  | throws _ => trivial
  | ub _ => rw [h] at this; exact this.elim

theorem core_ub (srt : List (List Nat × Nat × Nat) → List (List Nat × Nat × Nat)) (hs : IsSort srt) (S : Shape)
    (hS : ShapeOk S) (g : Model K) (m : Contents K) (hr : Returns S.sides g m) (hp : Proper S.nc S.nf m)
    (hb : ∀ f ∈ m.sides, ∃ c ∈ m.cells, ∀ i ∈ f.2, i ∈ c.2) (f : List Nat) (hf : f.Pairwise (· < ·))
    (hl : f.length = S.nf) (h2 : 2 < around m.cells f) : (core srt S g).IsUB := by
  have hcol := facesFound_collects S hS m hp
  have hsn : ∀ x ∈ m.sides, x.2.Nodup := fun x hx => (sides_ok m hp x hx).2
  have hinc : ∀ f ∈ facesFound S m, f.Pairwise (· < ·) := fun f hf => by
    obtain ⟨c, _, h⟩ := (hcol.2 f).1 hf
    exact h.1
  have hset := setAll_replicate m hsn (facesFound S m) hcol.1 hinc fun x hx => (side_found S hS m hp x hx).2 (hb x hx)
  obtain ⟨hmesh, hocc⟩ := core_mesh srt hs S hS m hp
  have hub := mark_ub ⟨(srt ((collected m).map fun c => (simplex c.1, c.2))).map Prod.fst,
    facesFound S m, S.facesOf, (facesFound S m).map fun f => descOf (listed m.sides f)⟩
    ⟨(Lookup.strictSorted_iff_pairwise _).2 hcol.1, by simp⟩ hmesh (fun h => by
      have := h f
      simp only at this
      rw [hocc, if_pos ⟨hf, hl⟩] at this
      omega)
  rw [core_eq srt S hS g m hr hp, hset, Outcome.bind_ok]
  cases h : Neighbours.markInternal ⟨(srt ((collected m).map fun c => (simplex c.1, c.2))).map Prod.fst,
    facesFound S m, S.facesOf, (facesFound S m).map fun f => descOf (listed m.sides f)⟩ with
  | ok _ => rw [h] at hub; exact hub.elim
  | throws _ => rw [h] at hub; exact hub.elim
  | ub _ => trivial

/-! ### Elements that cannot be read -/

/-- Reading stops at the first undefined element. -/
theorem traverse_ub {α β : Type} (f : α → Outcome β) (l : List α) (hn : ∀ x ∈ l, ¬ (f x).Throws)
    (h : ∃ x ∈ l, (f x).IsUB) : (traverse f l).IsUB := by
  induction l with
  | nil => obtain ⟨_, hx, _⟩ := h; simp at hx
  | cons a l ih =>
    rw [traverse]
    cases ha : f a with
    | throws m => exact absurd (by rw [ha]; trivial) (hn a List.mem_cons_self)
    | ub m => trivial
    | ok b =>
      have h' : ∃ x ∈ l, (f x).IsUB := by
        obtain ⟨x, hx, hu⟩ := h
        rcases List.mem_cons.1 hx with rfl | hx
        · rw [ha] at hu; exact hu.elim
        · exact ⟨x, hx, hu⟩
      have := ih (fun x hx => hn x (List.mem_cons_of_mem _ hx)) h'
      rw [Outcome.bind_ok]
      cases ht : traverse f l with
      | ok _ => rw [ht] at this; exact this.elim
      | throws _ => rw [ht] at this; exact this.elim
      | ub _ => trivial

theorem traverse_not_throws {α β : Type} (f : α → Outcome β) (l : List α) (hn : ∀ x ∈ l, ¬ (f x).Throws) :
    ¬ (traverse f l).Throws := by
  induction l with
  | nil => exact fun h => h
  | cons a l ih =>
    rw [traverse]
    have := ih fun x hx => hn x (List.mem_cons_of_mem _ hx)
    cases ha : f a with
    | throws m => exact absurd (by rw [ha]; trivial) (hn a List.mem_cons_self)
    | ub m => exact fun h => h
    | ok b =>
      rw [Outcome.bind_ok]
      cases ht : traverse f l with
      | ok _ => exact fun h => h
      | throws _ => rw [ht] at this; exact absurd trivial this
      | ub _ => exact fun h => h

theorem corner_not_throws (tab : List (Option Nat)) (tags : List Nat) (pos : Nat) : ¬ (corner tab tags pos).Throws := by
  unfold corner read
  cases tags[pos]? with
  | none => exact fun h => h
  | some t =>
    rw [Outcome.bind_ok]
    cases tab[t]? with
    | none => exact fun h => h
    | some o => cases o <;> exact fun h => h

theorem elements_not_throws (tab : List (Option Nat)) (n : Nat) (b : Block) : ¬ (elements tab n b).Throws := by
  unfold elements
  dsimp only
  split_ifs
  · exact fun h => h
  · exact fun h => h
  · exact traverse_not_throws _ _ fun i _ => traverse_not_throws _ _ fun j _ => corner_not_throws _ _ _

/-- A tag that is no tag of a node has no place. -/
theorem corner_ub (tags l : List Nat) (pos : Nat) (h : ∀ t, l[pos]? = some t → t ∉ tags) :
    (corner (tagTable tags) l pos).IsUB := by
  unfold corner read
  cases hl : l[pos]? with
  | none => trivial
  | some t =>
    rw [Outcome.bind_ok]
    have : (tagTable tags)[t]? = none ∨ (tagTable tags)[t]? = some none := by
      unfold tagTable
      rw [fold_set_other _ _ _ (by rw [List.zipIdx_map_fst]; exact h t hl), List.getElem?_replicate]
      split_ifs <;> simp
    rcases this with h | h <;> rw [h] <;> trivial

theorem elements_ub (tags : List Nat) (n : Nat) (b : Block) (h : b.elemTags = [] ∨ ∃ i < b.elemTags.length, ∃ j < n,
    ∀ t, b.nodeTags[b.nodeTags.length / b.elemTags.length * i + j]? = some t → t ∉ tags) :
    (elements (tagTable tags) n b).IsUB := by
  unfold elements
  dsimp only
  split_ifs with h1 h2
  · trivial
  · trivial
  · rcases h with h | ⟨i, hi, j, hj, ht⟩
    · rw [h] at h1; exact absurd rfl h1
    · refine traverse_ub _ _ (fun i _ => traverse_not_throws _ _ fun j _ => corner_not_throws _ _ _)
        ⟨i, List.mem_range.2 hi, traverse_ub _ _ (fun j _ => corner_not_throws _ _ _) ⟨j, List.mem_range.2 hj, ?_⟩⟩
      exact corner_ub tags _ _ ht

theorem bind_ok_throws {α β : Type} (o : Outcome α) (f : α → β) (h : ¬ o.Throws) :
    ¬ (o.bind fun a => .ok (f a)).Throws := by
  cases o with
  | throws _ => exact absurd trivial h
  | ok _ => exact fun h => h
  | ub _ => exact fun h => h

theorem bind_isUB {α β : Type} (o : Outcome α) (f : α → Outcome β) (h : o.IsUB) : (o.bind f).IsUB := by
  cases o with
  | throws _ => exact h.elim
  | ok _ => exact h.elim
  | ub _ => trivial

/-- An empty block or a corner that is no node. -/
theorem core_dangling (srt : List (List Nat × Nat × Nat) → List (List Nat × Nat × Nat)) (S : Shape) (g : Model K)
    (h : ∃ r ∈ g.regions, ∃ b ∈ r.blocks, b.elemTags = [] ∨ ∃ i < b.elemTags.length, ∃ j < S.nc,
      ∀ t, b.nodeTags[b.nodeTags.length / b.elemTags.length * i + j]? = some t → t ∉ g.nodeTags) :
    (core srt S g).IsUB := by
  obtain ⟨r, hr, b, hb, h⟩ := h
  unfold core
  refine bind_isUB _ _ (traverse_ub _ _ (fun r _ => ?_) ⟨r, hr, ?_⟩)
  · exact bind_ok_throws _ _ (traverse_not_throws _ _ fun b _ => bind_ok_throws _ _ (elements_not_throws _ _ _))
  · exact bind_isUB _ _ (traverse_ub _ _ (fun b _ => bind_ok_throws _ _ (elements_not_throws _ _ _))
      ⟨b, hb, bind_isUB _ _ (elements_ub _ _ _ h)⟩)

theorem points_not_throws (dim : Nat) (g : Model K) : ¬ (points dim g).Throws := by
  refine traverse_not_throws _ _ fun i _ => traverse_not_throws _ _ fun j _ => ?_
  unfold read
  cases g.coords[3 * i + j]? <;> exact fun h => h

theorem isSort_sortBy : IsSort (Sort.sortBy fun x y => decide (x.1 < y.1)) := by
  intro l
  refine ⟨Sort.sortBy_perm _ _, ?_⟩
  have := Sort.sortBy_weak (fun x y : List Nat × Nat × Nat => decide (x.1 < y.1))
    (by intro a b; simp only [decide_eq_true_eq, decide_eq_false_iff_not]; exact fun h => not_lt.2 h.le)
    (by intro a b c; simp only [decide_eq_false_iff_not, not_lt]; exact fun h h' => le_trans h h') l
  refine this.imp ?_
  intro a b h
  simpa using h

end
end Verif.Gmsh
