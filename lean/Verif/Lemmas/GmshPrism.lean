import Verif.Lemmas.Gmsh
import Verif.Spec.GmshPrism
/-! Auxiliary facts about the loader of prisms generated by GMSH. -/
namespace Verif.GmshPrism
open Verif.Lookup Verif.MeshTopo Verif.MeshFile Verif.Gmsh
open Verif.Spec (Collects occurrences)
open Verif.Spec.Gmsh (Contents Corners listed)
open Verif.Spec.GmshPrism

/-! ### Loops -/

theorem traverse_exists {α β : Type} (f : α → Outcome β) (R : α → β → Prop) (l : List α)
    (h : ∀ x ∈ l, ∃ y, f x = .ok y ∧ R x y) : ∃ ys, traverse f l = .ok ys ∧ List.Forall₂ R l ys := by
  induction l with
  | nil => exact ⟨[], rfl, .nil⟩
  | cons x xs ih =>
    obtain ⟨y, hy, hR⟩ := h x (by simp)
    obtain ⟨ys, hys, hRs⟩ := ih fun z hz => h z (List.mem_cons_of_mem _ hz)
    exact ⟨y :: ys, by rw [traverse, hy, Outcome.bind_ok, hys, Outcome.bind_ok], .cons hR hRs⟩

/-! ### A prism -/

theorem prismFaces_eq (p : List Nat) (h : p.length = 6) : prismFaces p = facesOf p := by
  match p, h with
  | [a, b, c, d, e, f], _ => rfl

theorem simplex_pair_mem {e : List Nat} {x y : Nat} (h : x ≠ y) : e = simplex [x, y] ↔ e.Perm [x, y] ∧ e.Pairwise (· < ·) := by
  constructor
  · rintro rfl
    exact ⟨simplex_perm _, simplex_sorted _ (by simpa using h)⟩
  · rintro ⟨h1, h2⟩
    exact (simplex_eq h2 h1).symm

theorem mem_prismEdges (p e : List Nat) (hl : p.length = 6) (hp : p.Nodup) :
    e ∈ prismEdges p ↔ ∃ x y, PrismEdge p x y ∧ e.Perm [x, y] ∧ e.Pairwise (· < ·) := by
  match p, hl with
  | [a, b, c, d, u, v], _ =>
    have hne : ∀ x y, PrismEdge [a, b, c, d, u, v] x y → x ≠ y := by
      intro x y h
      simp only [List.nodup_cons, List.mem_cons, List.not_mem_nil, or_false, not_or] at hp
      cases h with
      | bottom _ _ _ _ _ _ _ _ h =>
        have := h.nodup (by simp; omega)
        simpa using this
      | top _ _ _ _ _ _ _ _ h =>
        have := h.nodup (by simp; omega)
        simpa using this
      | up _ _ _ _ _ _ _ _ h =>
        simp only [List.zip_cons_cons, List.zip_nil_right, List.mem_cons, Prod.mk.injEq, List.not_mem_nil, or_false] at h
        omega
    constructor
    · intro h
      simp only [prismEdges, pick, List.map_cons, List.map_nil, List.getD_cons_zero, List.getD_cons_succ, List.mem_cons,
        List.not_mem_nil, or_false] at h
      have key : ∀ x y, PrismEdge [a, b, c, d, u, v] x y → e = simplex [x, y] →
          ∃ x y, PrismEdge [a, b, c, d, u, v] x y ∧ e.Perm [x, y] ∧ e.Pairwise (· < ·) :=
        fun x y hxy he => ⟨x, y, hxy, (simplex_pair_mem (hne x y hxy)).1 he⟩
      rcases h with h | h | h | h | h | h | h | h | h
      · exact key _ _ (.bottom _ _ _ _ _ _ _ _ (by simp)) h
      · exact key _ _ (.bottom _ _ _ _ _ _ _ _ (.cons_cons _ (.cons _ (.refl _)))) h
      · exact key _ _ (.up _ _ _ _ _ _ _ _ (by simp)) h
      · exact key _ _ (.bottom _ _ _ _ _ _ _ _ (.cons _ (.refl _))) h
      · exact key _ _ (.up _ _ _ _ _ _ _ _ (by simp)) h
      · exact key _ _ (.up _ _ _ _ _ _ _ _ (by simp)) h
      · exact key _ _ (.top _ _ _ _ _ _ _ _ (by simp)) h
      · exact key _ _ (.top _ _ _ _ _ _ _ _ (.cons_cons _ (.cons _ (.refl _)))) h
      · exact key _ _ (.top _ _ _ _ _ _ _ _ (.cons _ (.refl _))) h
    · rintro ⟨x, y, hxy, he⟩
      have he := (simplex_pair_mem (hne x y hxy)).2 he
      simp only [prismEdges, pick, List.map_cons, List.map_nil, List.getD_cons_zero, List.getD_cons_succ, List.mem_cons,
        List.not_mem_nil, or_false]
      have two : ∀ p q r : Nat, List.Sublist [x, y] [p, q, r] → (x = p ∧ y = q) ∨ (x = p ∧ y = r) ∨ (x = q ∧ y = r) := by
        intro p q r h
        cases h with
        | cons _ h =>
          have := h.eq_of_length rfl
          simp at this; tauto
        | cons_cons _ h =>
          have := h.subset (List.mem_singleton.2 rfl)
          simp at this; tauto
      cases hxy with
      | bottom _ _ _ _ _ _ _ _ h => rcases two _ _ _ h with ⟨rfl, rfl⟩ | ⟨rfl, rfl⟩ | ⟨rfl, rfl⟩ <;> simp [he]
      | top _ _ _ _ _ _ _ _ h => rcases two _ _ _ h with ⟨rfl, rfl⟩ | ⟨rfl, rfl⟩ | ⟨rfl, rfl⟩ <;> simp [he]
      | up _ _ _ _ _ _ _ _ h =>
        simp only [List.zip_cons_cons, List.zip_nil_right, List.mem_cons, Prod.mk.injEq, List.not_mem_nil, or_false] at h
        rcases h with ⟨rfl, rfl⟩ | ⟨rfl, rfl⟩ | ⟨rfl, rfl⟩ <;> simp [he]

/-- A face: three or four different points. -/
def IsFace (f : List Nat) : Prop := (f.length = 3 ∨ f.length = 4) ∧ f.Nodup

/-- The pairs of neighbouring points. -/
def around2 (f : List Nat) : List (Nat × Nat) := f.zip (f.tail ++ f.head?.toList)

theorem facesOf_face (p f : List Nat) (hp : p.Nodup) (h : f ∈ facesOf p) : IsFace f := by
  unfold facesOf at h
  split at h
  · simp only [List.nodup_cons, List.mem_cons, List.not_mem_nil, or_false, not_or] at hp
    simp only [List.mem_cons, List.not_mem_nil, or_false] at h
    rcases h with rfl | rfl | rfl | rfl | rfl <;> refine ⟨by simp, ?_⟩ <;> simp <;> omega
  · simp at h

theorem facesOf_edges (p f : List Nat) (hl : p.length = 6) (h : f ∈ facesOf p) (q : Nat × Nat) (hq : q ∈ around2 f) :
    simplex [q.1, q.2] ∈ prismEdges p := by
  match p, hl with
  | [a, b, c, d, u, v], _ =>
    have sw : ∀ x y : Nat, simplex [x, y] = simplex [y, x] := by
      intro x y
      rcases Nat.lt_trichotomy x y with h | rfl | h
      · rw [(pair_simplex h).1, (pair_simplex h).2]
      · rfl
      · rw [(pair_simplex h).1, (pair_simplex h).2]
    simp only [facesOf, List.mem_cons, List.not_mem_nil, or_false] at h
    simp only [prismEdges, pick, List.map_cons, List.map_nil, List.getD_cons_zero, List.getD_cons_succ]
    rcases h with rfl | rfl | rfl | rfl | rfl <;>
      simp only [around2, List.tail_cons, List.head?_cons, Option.toList_some, List.cons_append, List.nil_append,
        List.zip_cons_cons, List.zip_nil_right, List.mem_cons, List.not_mem_nil, or_false] at hq <;>
      rcases hq with rfl | rfl | rfl | rfl <;> first | (simp; done) | (simp only [List.mem_cons]; simp only [sw c a, sw u d, sw d a, sw v d, sw v u, sw u b]; simp)

theorem facesOf_distinct (p : List Nat) (hp : p.Nodup) : (facesOf p).Pairwise fun f f' => ¬ f.Perm f' := by
  unfold facesOf
  split
  · next a b c d e f =>
    simp only [List.nodup_cons, List.mem_cons, List.not_mem_nil, or_false, not_or] at hp
    have key : ∀ (l l' : List Nat) (x : Nat), x ∈ l → x ∉ l' → ¬ l.Perm l' := fun l l' x h h' hp => h' (hp.mem_iff.1 h)
    simp only [List.pairwise_cons, List.mem_cons, List.not_mem_nil, or_false, forall_eq_or_imp, forall_eq,
      List.Pairwise.nil, and_true, IsEmpty.forall_iff, implies_true]
    refine ⟨⟨key _ _ c ?_ ?_, key _ _ b ?_ ?_, key _ _ a ?_ ?_, key _ _ a ?_ ?_⟩,
      ⟨key _ _ b ?_ ?_, key _ _ a ?_ ?_, key _ _ a ?_ ?_⟩, ⟨key _ _ a ?_ ?_, key _ _ a ?_ ?_⟩, key _ _ b ?_ ?_⟩ <;>
      simp <;> omega
  · exact .nil

/-! ### Different faces -/

section
variable {srt : Sorter}

theorem uniqFrom_spec (x : List Nat) (xs : List (List Nat)) (h : (x :: xs).Pairwise fun x y => ¬ simplex y < simplex x) :
    (∀ y ∈ uniqFrom x xs, y ∈ xs) ∧ (∀ y ∈ xs, ∃ z ∈ x :: uniqFrom x xs, simplex y = simplex z) ∧
    ((x :: uniqFrom x xs).map simplex).Pairwise (· < ·) := by
  induction xs generalizing x with
  | nil => simp [uniqFrom]
  | cons y ys ih =>
    rw [uniqFrom]
    split
    · next hxy =>
      have h' : (x :: ys).Pairwise fun x y => ¬ simplex y < simplex x := by
        rw [List.pairwise_cons] at h ⊢
        exact ⟨fun z hz => h.1 z (List.mem_cons_of_mem _ hz), (List.pairwise_cons.1 h.2).2⟩
      obtain ⟨h1, h2, h3⟩ := ih x h'
      refine ⟨fun z hz => List.mem_cons_of_mem _ (h1 z hz), fun z hz => ?_, h3⟩
      rcases List.mem_cons.1 hz with rfl | hz
      · exact ⟨x, by simp, hxy.symm⟩
      · exact h2 z hz
    · next hxy =>
      have hc := List.pairwise_cons.1 h
      obtain ⟨h1, h2, h3⟩ := ih y hc.2
      refine ⟨fun z hz => ?_, fun z hz => ?_, ?_⟩
      · rcases List.mem_cons.1 hz with rfl | hz
        · simp
        · exact List.mem_cons_of_mem _ (h1 z hz)
      · rcases List.mem_cons.1 hz with rfl | hz
        · exact ⟨z, by simp, rfl⟩
        · obtain ⟨w, hw, hzw⟩ := h2 z hz
          exact ⟨w, List.mem_cons_of_mem _ hw, hzw⟩
      · have hlt : simplex x < simplex y := lt_of_le_of_ne (not_lt.1 (hc.1 y (by simp))) hxy
        rw [List.map_cons, List.pairwise_cons]
        refine ⟨fun z hz => ?_, h3⟩
        rw [List.map_cons] at hz h3
        rcases List.mem_cons.1 hz with rfl | hz
        · exact hlt
        · exact lt_trans hlt ((List.pairwise_cons.1 h3).1 z hz)

theorem uniqFaces_spec (hs : IsSorter srt) (l : List (List Nat)) :
    (∀ y ∈ uniqFaces srt l, y ∈ l) ∧ (∀ y ∈ l, ∃ z ∈ uniqFaces srt l, simplex y = simplex z) ∧
    ((uniqFaces srt l).map simplex).Pairwise (· < ·) := by
  obtain ⟨h1, h2⟩ := hs simplex l
  unfold uniqFaces
  split
  · next h =>
    rw [h] at h1
    have : l = [] := by simpa using h1.symm.eq_nil
    subst this
    simp
  · next x xs h =>
    rw [h] at h1 h2
    obtain ⟨h3, h4, h5⟩ := uniqFrom_spec x xs h2
    refine ⟨fun y hy => ?_, fun y hy => ?_, h5⟩
    · rcases List.mem_cons.1 hy with rfl | hy
      · exact h1.mem_iff.1 (by simp)
      · exact h1.mem_iff.1 (List.mem_cons_of_mem _ (h3 y hy))
    · rcases List.mem_cons.1 (h1.mem_iff.2 hy) with rfl | hy
      · exact ⟨y, by simp, rfl⟩
      · exact h4 y hy

/-! ### Surfaces -/

theorem inst_lb (v : List (List Nat)) (hs : v.Pairwise (· < ·)) (x : List Nat) (hx : x ∈ v) :
    v[lowerBound v x]? = some x := by
  obtain ⟨k, hk⟩ := List.mem_iff_getElem?.1 hx
  have h := (find_iff v hs x k).2 hk
  unfold findElementId at h
  dsimp only at h
  split at h
  · split at h
    · simp only [Prod.mk.injEq, true_and, Ident.Ident.mk', Ident.Ident.mk.injEq] at h
      rw [h.1, hk]
    · simp at h
  · simp at h

/-- The numbers of the edges of a face. -/
def ids (edges : List (List Nat)) (f : List Nat) : List Nat :=
  (around2 f).map fun q => lowerBound edges (simplex [q.1, q.2])

theorem edgeId_ok (edges : List (List Nat)) (hs : edges.Pairwise (· < ·)) (a b : Nat) (h : simplex [a, b] ∈ edges) :
    edgeId edges a b = .ok (lowerBound edges (simplex [a, b])) := by
  unfold edgeId
  dsimp only
  rw [inst_lb edges hs _ h]
  simp

theorem surface_ok (edges : List (List Nat)) (hs : edges.Pairwise (· < ·)) (f : List Nat) (hf : IsFace f)
    (he : ∀ q ∈ around2 f, simplex [q.1, q.2] ∈ edges) : surface edges f = .ok (ids edges f, f) := by
  have h3 : ∀ a b c : Nat, f = [a, b, c] → surface edges f = .ok (ids edges f, f) := by
    rintro a b c rfl
    simp only [around2, List.tail_cons, List.head?_cons, Option.toList_some, List.cons_append, List.nil_append,
      List.zip_cons_cons, List.zip_nil_right, List.mem_cons, List.not_mem_nil, or_false, forall_eq_or_imp, forall_eq] at he
    simp [surface, ids, around2, List.range_succ, traverse, Gmsh.read, edgeId_ok edges hs _ _ he.1,
      edgeId_ok edges hs _ _ he.2.1, edgeId_ok edges hs _ _ he.2.2]
  have h4 : ∀ a b c d : Nat, f = [a, b, c, d] → surface edges f = .ok (ids edges f, f) := by
    rintro a b c d rfl
    simp only [around2, List.tail_cons, List.head?_cons, Option.toList_some, List.cons_append, List.nil_append,
      List.zip_cons_cons, List.zip_nil_right, List.mem_cons, List.not_mem_nil, or_false, forall_eq_or_imp, forall_eq] at he
    simp [surface, ids, around2, List.range_succ, traverse, Gmsh.read, edgeId_ok edges hs _ _ he.1,
      edgeId_ok edges hs _ _ he.2.1, edgeId_ok edges hs _ _ he.2.2.1, edgeId_ok edges hs _ _ he.2.2.2]
  rcases hf.1 with h | h
  · match f, h with
    | [a, b, c], _ => exact h3 a b c rfl
  · match f, h with
    | [a, b, c, d], _ => exact h4 a b c d rfl

theorem mem_around2 (f : List Nat) (x : Nat) : x ∈ f ↔ ∃ q ∈ around2 f, x = q.1 ∨ x = q.2 := by
  match f with
  | [] => simp [around2]
  | a :: f =>
    have hl : (a :: f).length = (f ++ [a]).length := by simp
    constructor
    · intro hx
      obtain ⟨i, hi, rfl⟩ := List.getElem_of_mem hx
      refine ⟨((a :: f)[i], (f ++ [a])[i]'(by omega)), ?_, .inl rfl⟩
      rw [List.mem_iff_getElem]
      refine ⟨i, ?_, ?_⟩
      · simp [around2]; simpa using hi
      · simp [around2]
    · rintro ⟨⟨q, r⟩, hq, rfl | rfl⟩
      · exact (List.of_mem_zip hq).1
      · have := (List.of_mem_zip hq).2
        simp at this
        simpa [or_comm] using this

theorem ids_inj (edges : List (List Nat)) (hs : edges.Pairwise (· < ·)) (f f' : List Nat) (hf : IsFace f) (hf' : IsFace f')
    (he : ∀ q ∈ around2 f, simplex [q.1, q.2] ∈ edges) (he' : ∀ q ∈ around2 f', simplex [q.1, q.2] ∈ edges)
    (h : ids edges f = ids edges f') : f.Perm f' := by
  have hm : ∀ f : List Nat, (∀ q ∈ around2 f, simplex [q.1, q.2] ∈ edges) →
      (ids edges f).map (edges.getD · []) = (around2 f).map fun q => simplex [q.1, q.2] := by
    intro f he
    unfold ids
    rw [List.map_map]
    apply List.map_congr_left
    intro q hq
    simp [List.getD, inst_lb edges hs _ (he q hq)]
  have hx : ∀ (f : List Nat) (x : Nat), x ∈ f ↔ ∃ e ∈ (around2 f).map fun q => simplex [q.1, q.2], x ∈ e := by
    intro f x
    rw [mem_around2]
    simp only [List.mem_map, exists_exists_and_eq_and, (simplex_perm _).mem_iff, List.mem_cons, List.not_mem_nil, or_false]
  rw [List.perm_ext_iff_of_nodup hf.2 hf'.2]
  intro x
  rw [hx f, hx f', ← hm f he, ← hm f' he', h]

/-- Everything about the surfaces: they are faces of cells, their edges are among the edges, they are different. -/
structure Good (edges : List (List Nat)) (surfs : List (List Nat × List Nat)) : Prop where
  sorted : edges.Pairwise (· < ·)
  face : ∀ s ∈ surfs, IsFace s.2
  edge : ∀ s ∈ surfs, ∀ q ∈ around2 s.2, simplex [q.1, q.2] ∈ edges
  ids : ∀ s ∈ surfs, s.1 = ids edges s.2
  differ : surfs.Pairwise fun s t => ¬ s.2.Perm t.2
  increasing : (surfs.map Prod.fst).Pairwise (· < ·)

theorem pairwise_of_perm {α : Type} {l l' : List α} {R : α → α → Prop} (h : l.Perm l') (hs : ∀ x y, R x y → R y x)
    (hl : l'.Pairwise R) : l.Pairwise R := (h.pairwise_iff (fun {x y} => hs x y)).2 hl

theorem good_surfs (hs : IsSorter srt) (edges : List (List Nat)) (he : edges.Pairwise (· < ·)) (U : List (List Nat))
    (hu : (U.map simplex).Pairwise (· < ·)) (hf : ∀ f ∈ U, IsFace f)
    (hq : ∀ f ∈ U, ∀ q ∈ around2 f, simplex [q.1, q.2] ∈ edges) :
    Good edges (srt Prod.fst (U.map fun f => (ids edges f, f))) := by
  obtain ⟨h1, h2⟩ := hs Prod.fst (U.map fun f => (ids edges f, f))
  have hm : ∀ s ∈ srt Prod.fst (U.map fun f => (ids edges f, f)), s.2 ∈ U ∧ s.1 = ids edges s.2 := by
    intro s hs'
    obtain ⟨f, hf, rfl⟩ := List.mem_map.1 (h1.mem_iff.1 hs')
    exact ⟨hf, rfl⟩
  have hd : (srt Prod.fst (U.map fun f => (ids edges f, f))).Pairwise fun s t => ¬ s.2.Perm t.2 := by
    refine pairwise_of_perm h1 (fun x y h h' => h h'.symm) ?_
    rw [List.pairwise_map]
    rw [List.pairwise_map] at hu
    refine hu.imp_of_mem fun {f f'} hf1 hf2 hlt hp => ?_
    have : simplex f = simplex f' := simplex_eq (simplex_sorted _ (hf f' hf2).2) ((simplex_perm _).trans hp.symm)
    rw [this] at hlt
    exact lt_irrefl _ hlt
  refine ⟨he, fun s h => hf _ (hm s h).1, fun s h => hq _ (hm s h).1, fun s h => (hm s h).2, hd, ?_⟩
  rw [List.pairwise_map]
  refine (h2.and hd).imp_of_mem fun {s t} hs1 ht1 h => lt_of_le_of_ne (not_lt.1 h.1) fun h' => h.2 ?_
  rw [(hm s hs1).2, (hm t ht1).2] at h'
  exact ids_inj edges he _ _ (hf _ (hm s hs1).1) (hf _ (hm t ht1).1) (hq _ (hm s hs1).1) (hq _ (hm t ht1).1) h'

theorem Good.unique {edges : List (List Nat)} {surfs : List (List Nat × List Nat)} (h : Good edges surfs)
    {s t : List Nat × List Nat} (hs : s ∈ surfs) (ht : t ∈ surfs) (hp : s.2.Perm t.2) : s = t := by
  by_contra hne
  obtain ⟨i, hi, rfl⟩ := List.getElem_of_mem hs
  obtain ⟨j, hj, rfl⟩ := List.getElem_of_mem ht
  rcases Nat.lt_trichotomy i j with hlt | rfl | hlt
  · exact List.pairwise_iff_getElem.1 h.differ _ _ hi hj hlt hp
  · exact hne rfl
  · exact List.pairwise_iff_getElem.1 h.differ _ _ hj hi hlt hp.symm

/-! ### Search -/

theorem table_keys (hs : IsSorter srt) {edges : List (List Nat)} {surfs : List (List Nat × List Nat)} (h : Good edges surfs) :
    ((table srt surfs).map fun x => simplex x.1.2).Pairwise (· < ·) ∧
    ∀ x, x ∈ table srt surfs ↔ surfs[x.2]? = some x.1 := by
  obtain ⟨h1, h2⟩ := hs (fun x : (List Nat × List Nat) × Nat => simplex x.1.2) surfs.zipIdx
  have hmem : ∀ x, x ∈ table srt surfs ↔ surfs[x.2]? = some x.1 := fun x => by
    unfold table
    rw [h1.mem_iff, List.mem_zipIdx_iff_getElem?]
  refine ⟨?_, hmem⟩
  have hd : (table srt surfs).Pairwise fun x y => ¬ x.1.2.Perm y.1.2 := by
    refine pairwise_of_perm h1 (fun x y h h' => h h'.symm) ?_
    have := h.differ
    rw [← List.zipIdx_map_fst 0 surfs, List.pairwise_map] at this
    exact this
  rw [List.pairwise_map]
  refine (h2.and hd).imp_of_mem fun {x y} _ _ h => lt_of_le_of_ne (not_lt.1 h.1) fun h' => h.2 ?_
  exact (simplex_perm _).symm.trans ((List.Perm.of_eq h').trans (simplex_perm _))

theorem equalTo_self (a : List Nat) : equalTo a a = .ok true := by
  induction a with
  | nil => rfl
  | cons x xs ih => simp [equalTo, ih]

theorem equalTo_false (a b : List Nat) (h1 : ¬ a <+: b) (h2 : ¬ b <+: a) : equalTo a b = .ok false := by
  induction a generalizing b with
  | nil => simp at h1
  | cons x xs ih =>
    cases b with
    | nil => simp at h2
    | cons y ys =>
      rw [equalTo]
      split
      · next hxy =>
        subst hxy
        exact ih ys (fun h => h1 ((List.prefix_cons_inj x).2 h)) (fun h => h2 ((List.prefix_cons_inj x).2 h))
      · rfl

theorem equalTo_ub (a b : List Nat) (h : b <+: a) (hne : a ≠ b) : (equalTo a b).IsUB := by
  induction a generalizing b with
  | nil => simp at h; exact absurd h.symm hne
  | cons x xs ih =>
    cases b with
    | nil => trivial
    | cons y ys =>
      rw [List.cons_prefix_cons] at h
      obtain ⟨rfl, h⟩ := h
      rw [equalTo, if_pos rfl]
      exact ih ys h fun h => hne (by rw [h])

theorem find_some (hs : IsSorter srt) {edges : List (List Nat)} {surfs : List (List Nat × List Nat)} (h : Good edges surfs)
    (s : List Nat × List Nat) (i : Nat) (hi : surfs[i]? = some s) (f : List Nat) (hp : s.2.Perm f) :
    find (table srt surfs) f = .ok (some i) := by
  obtain ⟨hk, hm⟩ := table_keys hs h
  have hmem : (s, i) ∈ table srt surfs := (hm (s, i)).2 hi
  have hface := h.face s (List.mem_of_getElem? hi)
  have hkey : simplex s.2 = simplex f := (simplex_eq (simplex_sorted _ (hp.nodup_iff.1 hface.2)) ((simplex_perm _).trans hp.symm))
  have hlb := inst_lb _ hk (simplex f) (List.mem_map.2 ⟨(s, i), hmem, hkey⟩)
  unfold find
  rw [List.getElem?_map] at hlb
  obtain ⟨x, hx, hxk⟩ := Option.map_eq_some_iff.1 hlb
  rw [hx]
  dsimp only at hxk ⊢
  rw [hxk, equalTo_self, Outcome.bind_ok]
  have hxm := (hm x).1 (List.mem_of_getElem? hx)
  have hxs : x.1 = s := h.unique (List.mem_of_getElem? hxm) (List.mem_of_getElem? hi)
    ((simplex_perm _).symm.trans ((List.Perm.of_eq (hxk.trans hkey.symm)).trans (simplex_perm _)))
  rw [hxs] at hxm
  have : x.2 = i := by
    obtain ⟨h1, h1'⟩ := List.getElem?_eq_some_iff.1 hxm
    obtain ⟨h2, h2'⟩ := List.getElem?_eq_some_iff.1 hi
    by_contra hne
    rcases Nat.lt_or_gt_of_ne hne with hlt | hlt
    · exact List.pairwise_iff_getElem.1 h.differ _ _ h1 h2 hlt (by rw [h1', h2'])
    · exact List.pairwise_iff_getElem.1 h.differ _ _ h2 h1 hlt (by rw [h1', h2'])
  simp [this]

theorem keys_ne (f : List Nat) {g : List Nat} (h : ¬ g.Perm f) : simplex g ≠ simplex f := fun h' =>
  h ((simplex_perm _).symm.trans ((List.Perm.of_eq h').trans (simplex_perm _)))

theorem cons_le {x y : Nat} {xs ys : List Nat} : x :: xs ≤ y :: ys ↔ x < y ∨ x = y ∧ xs ≤ ys := by
  rw [← not_lt, ← not_lt (a := ys)]
  have : (y :: ys < x :: xs) ↔ (y < x ∨ y = x ∧ ys < xs) := List.cons_lt_cons_iff
  rw [this]
  constructor
  · intro h
    rcases Nat.lt_trichotomy x y with h' | h' | h'
    · exact .inl h'
    · exact .inr ⟨h', fun h'' => h (.inr ⟨h'.symm, h''⟩)⟩
    · exact absurd (.inl h') h
  · rintro (h | ⟨h, h'⟩) (h'' | ⟨h2, h''⟩)
    · omega
    · omega
    · omega
    · exact h' h''

theorem prefix_le {a b : List Nat} (h : a <+: b) : a ≤ b := by
  induction a generalizing b with
  | nil => exact not_lt.1 (by intro h'; cases h')
  | cons x xs ih =>
    cases b with
    | nil => simp at h
    | cons y ys =>
      rw [List.cons_prefix_cons] at h
      obtain ⟨rfl, h⟩ := h
      exact cons_le.2 (.inr ⟨rfl, ih h⟩)

/-- What lies between a list and an extension of it is an extension. -/
theorem prefix_between {b x c : List Nat} (h1 : b ≤ x) (h2 : x ≤ c) (h : b <+: c) : b <+: x := by
  induction b generalizing x c with
  | nil => simp
  | cons a b ih =>
    cases c with
    | nil => simp at h
    | cons a' c =>
      rw [List.cons_prefix_cons] at h
      obtain ⟨rfl, h⟩ := h
      cases x with
      | nil =>
        exact absurd h1 (not_le.2 (List.nil_lt_cons _ _))
      | cons y x =>
        rw [cons_le] at h1 h2
        have : a = y := by
          rcases h1 with h1 | h1 <;> rcases h2 with h2 | h2 <;> omega
        subst this
        rw [List.cons_prefix_cons]
        refine ⟨rfl, ih ?_ ?_ h⟩
        · rcases h1 with h1 | h1
          · omega
          · exact h1.2
        · rcases h2 with h2 | h2
          · omega
          · exact h2.2

theorem find_cases (hs : IsSorter srt) {edges : List (List Nat)} {surfs : List (List Nat × List Nat)} (h : Good edges surfs)
    (f : List Nat) (hf : ∀ s ∈ surfs, ¬ s.2.Perm f) :
    ((∀ s ∈ surfs, ¬ simplex f <+: simplex s.2) → find (table srt surfs) f = .ok none) ∧
    ((∃ s ∈ surfs, simplex f <+: simplex s.2) → (find (table srt surfs) f).IsUB) := by
  obtain ⟨hk, hm⟩ := table_keys hs h
  have hle : ((table srt surfs).map fun x => simplex x.1.2).Pairwise (· ≤ ·) := hk.imp fun h => le_of_lt h
  have hlb := Lookup.lowerBound_spec ((table srt surfs).map fun x => simplex x.1.2) (simplex f) hle
  rw [← inst_eq] at hlb
  unfold find
  constructor
  · intro hpre
    split
    · rfl
    · next x hx =>
      have hxs := List.mem_of_getElem? ((hm x).1 (List.mem_of_getElem? hx))
      obtain ⟨hi, hx'⟩ := List.getElem?_eq_some_iff.1 hx
      have h3 := hlb.2.2 _ (by simpa using hi) le_rfl
      rw [List.getElem_map, hx'] at h3
      rw [equalTo_false _ _ (fun hp => keys_ne f (hf _ hxs) (le_antisymm (prefix_le hp) h3)) (hpre _ hxs)]
      rfl
  · rintro ⟨s, hs', hpre⟩
    obtain ⟨k, hk'⟩ := List.mem_iff_getElem?.1 hs'
    obtain ⟨j, hj, hjs⟩ := List.getElem_of_mem ((hm (s, k)).2 hk')
    have hne : ¬ simplex s.2 < simplex f := not_lt.2 (prefix_le hpre)
    have hij : lowerBound ((table srt surfs).map fun x => simplex x.1.2) (simplex f) ≤ j := by
      by_contra hc
      have := hlb.2.1 j (by simpa using hj) (by omega)
      rw [List.getElem_map, hjs] at this
      exact hne this
    have hi : lowerBound ((table srt surfs).map fun x => simplex x.1.2) (simplex f) < (table srt surfs).length := by omega
    rw [List.getElem?_eq_getElem hi]
    dsimp only
    have h3 := hlb.2.2 _ (by simpa using hi) le_rfl
    rw [List.getElem_map] at h3
    have h4 : simplex (table srt surfs)[lowerBound ((table srt surfs).map fun x => simplex x.1.2) (simplex f)].1.2 ≤
        simplex s.2 := by
      have := List.pairwise_iff_getElem.1 hle
      rcases Nat.lt_or_eq_of_le hij with hlt | heq
      · have := this _ j (by simpa using hi) (by simpa using hj) hlt
        rw [List.getElem_map, List.getElem_map, hjs] at this
        exact this
      · simp only [heq, hjs]; exact le_rfl
    have hxs := List.mem_of_getElem? ((hm _).1 (List.getElem_mem hi))
    have hub := equalTo_ub _ _ (prefix_between h3 h4 hpre) (keys_ne f (hf _ hxs))
    cases h' : equalTo (simplex (table srt surfs)[lowerBound ((table srt surfs).map fun x => simplex x.1.2) (simplex f)].1.2)
      (simplex f) with
    | ok _ => rw [h'] at hub; exact hub.elim
    | throws _ => rw [h'] at hub; exact hub.elim
    | ub _ => trivial

/-! ### Volumes -/

/-- The volume `v` made of the prism `c`. -/
def VolumeOf (surfs : List (List Nat × List Nat)) (c : List Nat × Nat × Nat) (v : List Nat × List Nat × Nat × Nat) : Prop :=
  v.2 = c ∧ List.Forall₂ (fun id f => ∃ s, surfs[id]? = some s ∧ s.2.Perm f) v.1 (facesOf c.1)

theorem volumes_ok (hs : IsSorter srt) {edges : List (List Nat)} {surfs : List (List Nat × List Nat)} (h : Good edges surfs)
    (cells : List (List Nat × Nat × Nat)) (hl : ∀ c ∈ cells, c.1.length = 6)
    (hf : ∀ c ∈ cells, ∀ f ∈ facesOf c.1, ∃ s ∈ surfs, s.2.Perm f) :
    ∃ vs, traverse (volume (table srt surfs)) cells = .ok vs ∧ List.Forall₂ (VolumeOf surfs) cells vs := by
  refine traverse_exists _ _ _ fun c hc => ?_
  have : ∀ f ∈ facesOf c.1, ∃ i, ((find (table srt surfs) f).bind fun o => match o with
      | none => .throws "face not found"
      | some i => .ok i) = .ok i ∧ ∃ s, surfs[i]? = some s ∧ s.2.Perm f := by
    intro f hf'
    obtain ⟨s, hs1, hp⟩ := hf c hc f hf'
    obtain ⟨i, hi⟩ := List.mem_iff_getElem?.1 hs1
    exact ⟨i, by rw [find_some hs h s i hi f hp, Outcome.bind_ok], s, hi, hp⟩
  obtain ⟨ys, h1, h2⟩ := traverse_exists _ _ _ this
  refine ⟨(ys, c), ?_, rfl, h2.flip⟩
  rw [volume, prismFaces_eq c.1 (hl c hc)]
  exact congrArg (fun o => Outcome.bind o fun ids => .ok (ids, c)) h1

theorem count_forall₂ {surfs : List (List Nat × List Nat)} {edges : List (List Nat)} (h : Good edges surfs)
    [BEq (List Nat)] [LawfulBEq (List Nat)]
    (is : List Nat) (fs : List (List Nat))
    (hf : List.Forall₂ (fun id f => ∃ s, surfs[id]? = some s ∧ s.2.Perm f) is fs) (s : List Nat × List Nat) (hs : s ∈ surfs) :
    (is.map ((surfs.map Prod.fst).getD · [])).count s.1 = fs.countP fun f => decide (f.Perm s.2) := by
  induction hf with
  | nil => simp
  | @cons i f is fs hi _ ih =>
    obtain ⟨t, ht, hp⟩ := hi
    have hget : (surfs.map Prod.fst).getD i [] = t.1 := by simp [List.getD, ht]
    rw [List.map_cons, List.count_cons, ih, List.countP_cons, hget]
    congr 1
    have htm := List.mem_of_getElem? ht
    have : t.1 = s.1 ↔ f.Perm s.2 := by
      constructor
      · intro h'
        rw [h.ids t htm, h.ids s hs] at h'
        exact hp.symm.trans (ids_inj edges h.sorted _ _ (h.face t htm) (h.face s hs) (h.edge t htm) (h.edge s hs) h')
      · intro h'
        rw [h.unique htm hs (hp.trans h')]
    simp [this]

theorem countP_facesOf (c : List Nat) (hc : c.Nodup) (f : List Nat) :
    ((facesOf c).countP fun g => decide (g.Perm f)) = if HasFace c f then 1 else 0 := by
  have hd := facesOf_distinct c hc
  have key : ∀ l : List (List Nat), l.Pairwise (fun f f' => ¬ f.Perm f') →
      ((l.countP fun g => decide (g.Perm f)) = 1 ∧ ∃ f' ∈ l, f'.Perm f) ∨
      ((l.countP fun g => decide (g.Perm f)) = 0 ∧ ¬ ∃ f' ∈ l, f'.Perm f) := by
    intro l hd
    by_cases hl : ∃ f' ∈ l, f'.Perm f
    · refine .inl ⟨?_, hl⟩
      induction l with
      | nil => simp at hl
      | cons g l ih =>
        rw [List.pairwise_cons] at hd
        rw [List.countP_cons]
        by_cases hg : g.Perm f
        · rw [List.countP_eq_zero.2 fun f' hf' => by
            simpa using fun hp => hd.1 f' hf' (hg.trans (List.Perm.symm hp))]
          simp [hg]
        · rw [ih hd.2 (by
            obtain ⟨f', h1, h2⟩ := hl
            rcases List.mem_cons.1 h1 with rfl | h1
            · exact absurd h2 hg
            · exact ⟨f', h1, h2⟩)]
          simp [hg]
    · exact .inr ⟨List.countP_eq_zero.2 fun f' hf' => by simpa using fun hp => hl ⟨f', hf', hp⟩, hl⟩
  rcases key _ hd with ⟨h1, h2⟩ | ⟨h1, h2⟩
  · rw [h1, if_pos (show HasFace c f from h2)]
  · rw [h1, if_neg (show ¬ HasFace c f from h2)]

theorem occ_aux {surfs : List (List Nat × List Nat)} {edges : List (List Nat)} (h : Good edges surfs)
    [BEq (List Nat)] [LawfulBEq (List Nat)] (cells : List (List Nat × Nat × Nat)) (vs : List (List Nat × List Nat × Nat × Nat))
    (hv : List.Forall₂ (VolumeOf surfs) cells vs) (hn : ∀ c ∈ cells, c.1.Nodup) (s : List Nat × List Nat) (hs : s ∈ surfs) :
    ((vs.map Prod.fst).flatMap fun c => c.map ((surfs.map Prod.fst).getD · [])).count s.1 =
      cells.countP fun c => decide (HasFace c.1 s.2) := by
  induction hv with
  | nil => simp
  | @cons c v cells vs hv _ ih =>
    rw [List.map_cons, List.flatMap_cons, List.count_append, ih fun c hc => hn c (List.mem_cons_of_mem _ hc),
      count_forall₂ h _ _ hv.2 s hs, countP_facesOf c.1 (hn c (by simp)), List.countP_cons, Nat.add_comm]
    simp

theorem occ_eq {surfs : List (List Nat × List Nat)} {edges : List (List Nat)} (h : Good edges surfs)
    (cells : List (List Nat × Nat × Nat)) (vs : List (List Nat × List Nat × Nat × Nat))
    (hv : List.Forall₂ (VolumeOf surfs) cells vs) (hn : ∀ c ∈ cells, c.1.Nodup) (s : List Nat × List Nat) (hs : s ∈ surfs) :
    occurrences (vs.map Prod.fst) (fun c => c.map ((surfs.map Prod.fst).getD · [])) s.1 =
      cells.countP fun c => decide (HasFace c.1 s.2) :=
  @occ_aux surfs edges h instBEqOfDecidableEq _ cells vs hv hn s hs

/-! ### The boundary -/

/-- The sides set one after the other. -/
def setAll (surf : List ((List Nat × List Nat) × Nat)) : List (List Nat × BDesc) → List BDesc → Outcome (List BDesc)
  | [], info => .ok info
  | x :: xs, info => (find surf x.1).bind fun o => match o with
      | none => .throws "Face not found"
      | some j => if j < info.length then setAll surf xs (info.set j x.2) else .throws "out_of_range"

theorem setAll_append (surf : List ((List Nat × List Nat) × Nat)) (a b : List (List Nat × BDesc)) (info : List BDesc) :
    setAll surf (a ++ b) info = (setAll surf a info).bind fun info => setAll surf b info := by
  induction a generalizing info with
  | nil => rfl
  | cons x xs ih =>
    rw [List.cons_append, setAll, setAll]
    cases find surf x.1 with
    | throws _ => rfl
    | ub _ => rfl
    | ok o =>
      cases o with
      | none => rfl
      | some j =>
        simp only [Outcome.bind_ok]
        split
        · exact ih _
        · rfl

theorem setAll_spec (hs : IsSorter srt) {edges : List (List Nat)} {surfs : List (List Nat × List Nat)} (h : Good edges surfs)
    (xs : List (List Nat × BDesc)) (info : List BDesc) (hl : info.length = surfs.length)
    (hx : ∀ x ∈ xs, ∃ s ∈ surfs, s.2.Perm x.1) :
    ∃ r, setAll (table srt surfs) xs info = .ok r ∧ r.length = surfs.length ∧
    ∀ (i : Nat) (s : List Nat × List Nat), surfs[i]? = some s → r[i]? =
      match (xs.filter fun x => decide (x.1.Perm s.2)).getLast? with
      | some x => some x.2
      | none => info[i]? := by
  induction xs generalizing info with
  | nil => exact ⟨info, rfl, hl, fun i f _ => rfl⟩
  | cons x xs ih =>
    obtain ⟨s0, hs0, hp⟩ := hx x (by simp)
    obtain ⟨k, hk⟩ := List.mem_iff_getElem?.1 hs0
    have hkl : k < surfs.length := (List.getElem?_eq_some_iff.1 hk).1
    obtain ⟨r, h1, h2, h3⟩ := ih (info.set k x.2) (by simpa using hl) (fun y hy => hx y (List.mem_cons_of_mem _ hy))
    refine ⟨r, ?_, h2, fun i s hi => ?_⟩
    · rw [setAll, find_some hs h s0 k hk x.1 hp, Outcome.bind_ok]
      dsimp only
      rw [if_pos (by omega), h1]
    rw [h3 i s hi]
    have key : k = i ↔ x.1.Perm s.2 := by
      constructor
      · rintro rfl
        rw [hk] at hi
        obtain rfl : s0 = s := by simpa using hi
        exact hp.symm
      · intro hxp
        have e1 := find_some hs h s0 k hk x.1 hp
        have e2 := find_some hs h s i hi x.1 hxp.symm
        rw [e1] at e2
        simpa using e2
    by_cases hxf : x.1.Perm s.2
    · have hki := key.2 hxf
      subst hki
      simp only [List.filter_cons, hxf, decide_true, if_true]
      cases hg : (xs.filter fun x => decide (x.1.Perm s.2)).getLast? with
      | none =>
        rw [List.getLast?_eq_none_iff] at hg
        rw [hg]
        simp [hl, hkl]
      | some y =>
        rw [List.getLast?_cons, hg]
        rfl
    · have hne : k ≠ i := fun h => hxf (key.1 h)
      simp only [List.filter_cons, hxf, decide_false, Bool.false_eq_true, if_false]
      rw [List.getElem?_set_ne hne]

theorem sideLoop_ok (tags : List Nat) (hn : tags.Nodup) (surf : List ((List Nat × List Nat) × Nat)) (d : BDesc) (k : Nat)
    (L : List (List Nat)) (hL : ∀ f ∈ L, f.length = k ∧ ∀ t ∈ f, t ∈ tags) (r n : Nat) (hr : r + n = L.length)
    (info : List BDesc) : sideLoop (tagTable tags) surf d k L.flatten (List.range' r n) info =
      setAll surf ((L.drop r).map fun f => (f.map tags.idxOf, d)) info := by
  induction n generalizing r info with
  | zero =>
    rw [List.drop_eq_nil_of_le (by omega)]
    rfl
  | succ n ih =>
    have hlt : r < L.length := by omega
    rw [List.range'_succ, sideLoop, corners_ok tags hn k L (fun f h => (hL f h).1) r L[r]
      (List.getElem?_eq_getElem hlt) (hL _ (List.getElem_mem hlt)).2, Outcome.bind_ok,
      List.drop_eq_getElem_cons hlt, List.map_cons, setAll]
    congr 1
    funext o
    cases o with
    | none => rfl
    | some j =>
      dsimp only
      split
      · exact ih (r + 1) (by omega) _
      · rfl

end

section
variable {K : Type} {srt : Sorter}

/-- The sides with their descriptors. -/
def wanted (m : Contents K) : List (List Nat × BDesc) := m.sides.map fun x => (x.2, BDesc.mk3 x.1.1 x.1.2 true)

theorem patches_ok (g : Model K) (m : Contents K) (hr : Returns g m) (hp : Proper m)
    (surf : List ((List Nat × List Nat) × Nat)) (info : List BDesc) :
    patchLoop (tagTable g.nodeTags) surf g.patches 0 info = setAll surf (wanted m) info := by
  unfold wanted Contents.sides
  have hpat := hr.patches
  have hprop : ∀ P ∈ m.patches, ∀ f ∈ P.2, ∀ t ∈ f, t ∈ m.nodes.map Prod.fst :=
    fun P hP f hf => (hp.side P hP f hf).2.2
  generalize g.patches = ps at hpat ⊢
  generalize m.patches = PS at hpat hprop ⊢
  generalize (0 : Nat) = b
  induction hpat generalizing b info with
  | nil => rfl
  | @cons p P ps PS' h _ ih =>
    obtain ⟨htag, s, T, Q, hs, hTQ, hT, hQ, hT3, hQ4⟩ := h
    have hP := hprop P (by simp)
    rw [hTQ] at hP
    rw [patchLoop, hs]
    dsimp only
    rw [hT, hQ, flatten_length 3 T hT3, flatten_length 4 Q hQ4, turns_mul _ _ (by omega), turns_mul _ _ (by omega),
      List.range_eq_range', List.range_eq_range', hr.tags,
      sideLoop_ok _ hp.tags surf _ 3 T (fun f hf => ⟨hT3 f hf, hP f (List.mem_append_left _ hf)⟩) 0 T.length (by omega)]
    simp only [sideLoop_ok _ hp.tags surf _ 4 Q (fun f hf => ⟨hQ4 f hf, hP f (List.mem_append_right _ hf)⟩) 0 Q.length
      (by omega)]
    rw [List.zipIdx_cons, List.flatMap_cons, hTQ, List.map_append, List.map_append, List.map_append, List.append_assoc,
      setAll_append, List.drop_zero, List.drop_zero, List.map_map, htag]
    congr 1
    funext info
    rw [setAll_append, List.map_map]
    congr 1
    funext info
    rw [← hr.tags]
    exact ih info (fun P hP => hprop P (List.mem_cons_of_mem _ hP)) (b + 1)

theorem setAll_replicate (hs : IsSorter srt) {edges : List (List Nat)} {surfs : List (List Nat × List Nat)}
    (h : Good edges surfs) (m : Contents K) (hx : ∀ x ∈ m.sides, ∃ s ∈ surfs, s.2.Perm x.2) :
    setAll (table srt surfs) (wanted m) (List.replicate surfs.length BDesc.default) =
      .ok (surfs.map fun s => descOf (listed m.sides s.2)) := by
  obtain ⟨r, h1, h2, h3⟩ := setAll_spec hs h (wanted m) (List.replicate surfs.length BDesc.default) (by simp) (by
    intro x hx'
    obtain ⟨y, hy, rfl⟩ := List.mem_map.1 hx'
    exact hx y hy)
  rw [h1]
  congr 1
  refine List.ext_getElem? fun i => ?_
  by_cases hil : i < surfs.length
  · have hfi : surfs[i]? = some surfs[i] := List.getElem?_eq_getElem hil
    rw [h3 i surfs[i] hfi, List.getElem?_map, hfi]
    simp only [Option.map_some]
    unfold listed wanted
    rw [List.filter_map, getLast?_map']
    cases hg : (m.sides.filter fun x => decide (x.2.Perm surfs[i].2)).getLast? with
    | none =>
      have hg' : (m.sides.filter ((fun x : List Nat × BDesc => decide (x.1.Perm surfs[i].2)) ∘
        fun x => (x.2, BDesc.mk3 x.1.1 x.1.2 true))).getLast? = none := hg
      rw [hg']
      simp [Gmsh.descOf, hil]
    | some x =>
      have hg' : (m.sides.filter ((fun x : List Nat × BDesc => decide (x.1.Perm surfs[i].2)) ∘
        fun x => (x.2, BDesc.mk3 x.1.1 x.1.2 true))).getLast? = some x := hg
      rw [hg']
      simp [Gmsh.descOf]
  · rw [List.getElem?_eq_none (by omega), List.getElem?_eq_none (by simp; omega)]

/-! ### The whole loader -/

/-- The prisms with the data of their regions. -/
def prisms (m : Contents K) : List (List Nat × Nat × Nat) := m.cells.map fun c => (c.2, c.1)

theorem regions_ok (g : Model K) (m : Contents K) (hr : Returns g m) (hp : Proper m) :
    ∃ l, traverse (regionPrisms (tagTable g.nodeTags)) g.regions.zipIdx = .ok l ∧ l.flatten = prisms m := by
  refine ⟨m.regions.zipIdx.map fun R => R.1.2.flatten.map fun e => (e.map m.pos, R.2, R.1.1), ?_, ?_⟩
  · apply traverse_forall₂
    have hreg := hr.regions
    have hprop : ∀ R ∈ m.regions, ∀ B ∈ R.2, B ≠ [] ∧ ∀ e ∈ B, Corners m 6 e :=
      fun R hR B hB => ⟨hp.block R hR B hB, hp.elem R hR B hB⟩
    generalize g.regions = rs0 at hreg ⊢
    generalize m.regions = RS at hreg hprop ⊢
    generalize (0 : Nat) = k
    induction hreg generalizing k with
    | nil => exact List.Forall₂.nil
    | @cons r R rs RS' h _ ih =>
      rw [List.zipIdx_cons, List.zipIdx_cons]
      refine List.Forall₂.cons ?_ (ih (fun R hR => hprop R (List.mem_cons_of_mem _ hR)) (k + 1))
      have hR := hprop R (by simp)
      unfold regionPrisms
      dsimp only
      rw [traverse_forall₂ _ (fun B => B.map fun e => (e.map m.pos, k, R.1)) r.blocks R.2]
      · rw [Outcome.bind_ok, List.map_flatten]
      · obtain ⟨htag, hb⟩ := h
        generalize r.blocks = bs0 at hb ⊢
        generalize R.2 = BS at hb hR ⊢
        induction hb with
        | nil => exact List.Forall₂.nil
        | @cons b B bs BS' hb _ ihb =>
          refine List.Forall₂.cons ?_ (ihb fun B hB => hR B (List.mem_cons_of_mem _ hB))
          have hB := hR B (by simp)
          rw [if_pos hb.1, hr.tags, elements_ok _ hp.tags 6 b B hB.1 hb.2.1 hb.2.2 fun e he =>
            ⟨(hB.2 e he).1, (hB.2 e he).2.2⟩, Outcome.bind_ok, htag, List.map_map]
          rfl
  · unfold prisms Contents.cells
    rw [List.map_flatMap, ← List.flatMap_def]
    simp only [List.map_map]
    rfl

theorem cells_ok (m : Contents K) (hp : Proper m) (c : (Nat × Nat) × List Nat) (hc : c ∈ m.cells) :
    c.2.length = 6 ∧ c.2.Nodup := by
  unfold Contents.cells at hc
  obtain ⟨R, hR, hc⟩ := List.mem_flatMap.1 hc
  obtain ⟨e, he, rfl⟩ := List.mem_map.1 hc
  obtain ⟨B, hB, he⟩ := List.mem_flatten.1 he
  have hR' : R.1 ∈ m.regions := by
    have := List.mem_map_of_mem (f := Prod.fst) hR
    rwa [List.zipIdx_map_fst] at this
  have := hp.elem R.1 hR' B hB e he
  exact ⟨by simpa using this.1, pos_injOn m e this.2.1 this.2.2⟩

theorem sides_ok (m : Contents K) (hp : Proper m) (c : (Nat × Nat) × List Nat) (hc : c ∈ m.sides) : c.2.Nodup := by
  unfold Contents.sides at hc
  obtain ⟨R, hR, hc⟩ := List.mem_flatMap.1 hc
  obtain ⟨e, he, rfl⟩ := List.mem_map.1 hc
  have hR' : R.1 ∈ m.patches := by
    have := List.mem_map_of_mem (f := Prod.fst) hR
    rwa [List.zipIdx_map_fst] at this
  have := hp.side R.1 hR' e he
  exact pos_injOn m e this.2.1 this.2.2

/-- What is made before the boundary. -/
structure Made (srt : Sorter) (m : Contents K) (edges : List (List Nat)) (surfs : List (List Nat × List Nat))
    (vs : List (List Nat × List Nat × Nat × Nat)) : Prop where
  good : Good edges surfs
  edges : EdgesAs m edges
  face : ∀ s ∈ surfs, ∃ c ∈ m.cells, s.2 ∈ facesOf c.2
  all : ∀ c ∈ m.cells, ∀ f ∈ facesOf c.2, ∃ s ∈ surfs, s.2.Perm f
  vols : List.Forall₂ (VolumeOf surfs) (prisms m) vs

/-- What remains to be done. -/
def rest (srt : Sorter) (m : Contents K) (edges : List (List Nat)) (surfs : List (List Nat × List Nat))
    (vs : List (List Nat × List Nat × Nat × Nat)) : Outcome (Loaded K) :=
  (setAll (table srt surfs) (wanted m) (List.replicate surfs.length BDesc.default)).bind fun info =>
  (Neighbours.markInternal ⟨(srt Prod.fst vs).map Prod.fst, surfs.map Prod.fst,
    fun c => c.map ((surfs.map Prod.fst).getD · []), info⟩).bind fun info =>
  .ok { points := m.nodes.map fun x => x.2.take 3, nodes := mkNodes m.nodes.length, edges := edges, surfaces := surfs,
        volumes := (srt Prod.fst vs).map fun v => (v.1, v.2.1), boundary := info,
        subdomains := (srt Prod.fst vs).map fun v => v.2.2 }

theorem load_made (hs : IsSorter srt) (g : Model K) (m : Contents K) (hr : Returns g m) (hp : Proper m) :
    ∃ edges surfs vs, Made srt m edges surfs vs ∧ load srt g = rest srt m edges surfs vs := by
  obtain ⟨l, h1, h2⟩ := regions_ok g m hr hp
  have hpr : ∀ c ∈ prisms m, ∃ d ∈ m.cells, c = (d.2, d.1) := fun c hc => by
    obtain ⟨d, hd, rfl⟩ := List.mem_map.1 hc
    exact ⟨d, hd, rfl⟩
  have hE : EdgesAs m (MeshFile.sortUniq ((prisms m).flatMap fun c => prismEdges c.1)) := by
    refine Collects.congr (collects_sortUniq _) fun e => ?_
    rw [List.mem_flatMap]
    constructor
    · rintro ⟨c, hc, he⟩
      obtain ⟨d, hd, rfl⟩ := hpr c hc
      exact ⟨d, hd, (mem_prismEdges d.2 e (cells_ok m hp d hd).1 (cells_ok m hp d hd).2).1 he⟩
    · rintro ⟨d, hd, he⟩
      exact ⟨(d.2, d.1), List.mem_map_of_mem hd, (mem_prismEdges d.2 e (cells_ok m hp d hd).1 (cells_ok m hp d hd).2).2 he⟩
  have hEm : ∀ d ∈ m.cells, ∀ e ∈ prismEdges d.2,
      e ∈ MeshFile.sortUniq ((prisms m).flatMap fun c => prismEdges c.1) := fun d hd e he =>
    (hE.2 e).2 ⟨d, hd, (mem_prismEdges d.2 e (cells_ok m hp d hd).1 (cells_ok m hp d hd).2).1 he⟩
  generalize hEdef : MeshFile.sortUniq ((prisms m).flatMap fun c => prismEdges c.1) = E at hE hEm
  obtain ⟨u1, u2, u3⟩ := uniqFaces_spec hs ((prisms m).flatMap fun c => prismFaces c.1)
  have uf : ∀ f ∈ uniqFaces srt ((prisms m).flatMap fun c => prismFaces c.1), ∃ d ∈ m.cells, f ∈ facesOf d.2 := by
    intro f hf
    obtain ⟨c, hc, hf⟩ := List.mem_flatMap.1 (u1 f hf)
    obtain ⟨d, hd, rfl⟩ := hpr c hc
    rw [prismFaces_eq d.2 (cells_ok m hp d hd).1] at hf
    exact ⟨d, hd, hf⟩
  have ua : ∀ d ∈ m.cells, ∀ f ∈ facesOf d.2, ∃ f' ∈ uniqFaces srt ((prisms m).flatMap fun c => prismFaces c.1),
      f'.Perm f := by
    intro d hd f hf
    obtain ⟨z, hz, h⟩ := u2 f (List.mem_flatMap.2 ⟨(d.2, d.1), List.mem_map_of_mem hd, by
      rw [prismFaces_eq d.2 (cells_ok m hp d hd).1]; exact hf⟩)
    exact ⟨z, hz, (simplex_perm z).symm.trans ((List.Perm.of_eq h.symm).trans (simplex_perm f))⟩
  generalize hUdef : uniqFaces srt ((prisms m).flatMap fun c => prismFaces c.1) = U at u3 uf ua
  have ui : ∀ f ∈ U, IsFace f := fun f hf => by
    obtain ⟨d, hd, h⟩ := uf f hf
    exact facesOf_face d.2 f (cells_ok m hp d hd).2 h
  have uq : ∀ f ∈ U, ∀ q ∈ around2 f, simplex [q.1, q.2] ∈ E := fun f hf q hq => by
    obtain ⟨d, hd, h⟩ := uf f hf
    exact hEm d hd _ (facesOf_edges d.2 f (cells_ok m hp d hd).1 h q hq)
  have hgood := good_surfs hs E hE.1 U u3 ui uq
  have hsp := (hs Prod.fst (U.map fun f => (ids E f, f))).1
  have hsm : ∀ s, s ∈ srt Prod.fst (U.map fun f => (ids E f, f)) ↔ ∃ f ∈ U, (ids E f, f) = s := fun s => by
    rw [hsp.mem_iff, List.mem_map]
  have hall : ∀ c ∈ m.cells, ∀ f ∈ facesOf c.2, ∃ s ∈ srt Prod.fst (U.map fun f => (ids E f, f)), s.2.Perm f := by
    intro c hc f hf
    obtain ⟨f', hf', hperm⟩ := ua c hc f hf
    exact ⟨(ids E f', f'), (hsm _).2 ⟨f', hf', rfl⟩, hperm⟩
  obtain ⟨vs, hv1, hv2⟩ := volumes_ok hs hgood (prisms m) (fun c hc => by
    obtain ⟨d, hd, rfl⟩ := hpr c hc
    exact (cells_ok m hp d hd).1) (fun c hc f hf => by
    obtain ⟨d, hd, rfl⟩ := hpr c hc
    exact hall d hd f hf)
  refine ⟨E, srt Prod.fst (U.map fun f => (ids E f, f)), vs, ⟨hgood, hE, ?_, hall, hv2⟩, ?_⟩
  · intro s hs'
    obtain ⟨f, hf, rfl⟩ := (hsm s).1 hs'
    exact uf f hf
  · unfold load
    dsimp only
    rw [points_ok 3 (by omega) g m hr.tags hr.coords hp.coords, Outcome.bind_ok, h1, Outcome.bind_ok, h2, hEdef, hUdef,
      Gmsh.traverse_ok (surface E) (fun f => (ids E f, f)) U (fun f hf => surface_ok E hE.1 f (ui f hf) (uq f hf)),
      Outcome.bind_ok, hv1, Outcome.bind_ok, patches_ok g m hr hp, rest, hr.tags, List.length_map]

theorem around_perm (cells : List ((Nat × Nat) × List Nat)) {f f' : List Nat} (h : f.Perm f') : around cells f = around cells f' := by
  unfold around
  congr 1
  funext c
  exact decide_eq_decide.2 ⟨fun ⟨g, hg, hp⟩ => ⟨g, hg, hp.trans h⟩, fun ⟨g, hg, hp⟩ => ⟨g, hg, hp.trans h.symm⟩⟩

section
variable {m : Contents K} {edges : List (List Nat)} {surfs : List (List Nat × List Nat)}
    {vs : List (List Nat × List Nat × Nat × Nat)}

theorem Made.vol (hm : Made srt m edges surfs vs) (v : List Nat × List Nat × Nat × Nat) (hv : v ∈ vs) :
    v.2 ∈ prisms m ∧ List.Forall₂ (fun id f => ∃ s, surfs[id]? = some s ∧ s.2.Perm f) v.1 (facesOf v.2.1) := by
  obtain ⟨i, hi, rfl⟩ := List.getElem_of_mem hv
  have hl := hm.vols.length_eq
  have h := (List.forall₂_iff_get.1 hm.vols).2 i (by omega) hi
  simp only [List.get_eq_getElem] at h
  rw [h.1]
  exact ⟨List.getElem_mem _, h.2⟩

theorem Made.mem (hs : IsSorter srt) (hm : Made srt m edges surfs vs) (c : List Nat) (hc : c ∈ (srt Prod.fst vs).map Prod.fst)
    (f : List Nat) (hf : f ∈ c.map ((surfs.map Prod.fst).getD · [])) : f ∈ surfs.map Prod.fst := by
  obtain ⟨v, hv, rfl⟩ := List.mem_map.1 hc
  obtain ⟨i, hi, rfl⟩ := List.mem_map.1 hf
  have h := (hm.vol v ((hs Prod.fst vs).1.mem_iff.1 hv)).2
  obtain ⟨k, hk, rfl⟩ := List.getElem_of_mem hi
  have hl := h.length_eq
  obtain ⟨s, h1, _⟩ := (List.forall₂_iff_get.1 h).2 k hk (by omega)
  simp only [List.get_eq_getElem] at h1
  refine List.mem_map.2 ⟨s, List.mem_of_getElem? h1, ?_⟩
  simp [List.getD, h1]

theorem Made.occ (hs : IsSorter srt) (hm : Made srt m edges surfs vs) (hp : Proper m) (s : List Nat × List Nat) (hs' : s ∈ surfs) :
    occurrences ((srt Prod.fst vs).map Prod.fst) (fun c => c.map ((surfs.map Prod.fst).getD · [])) s.1 = around m.cells s.2 := by
  rw [occurrences_perm ((hs Prod.fst vs).1.map Prod.fst), occ_eq hm.good (prisms m) vs hm.vols (fun c hc => by
    obtain ⟨d, hd, rfl⟩ := List.mem_map.1 hc
    exact (cells_ok m hp d hd).2) s hs']
  unfold prisms around
  rw [List.countP_map]
  rfl

theorem Made.other (hs : IsSorter srt) (hm : Made srt m edges surfs vs) (f : List Nat) (hf : f ∉ surfs.map Prod.fst) :
    occurrences ((srt Prod.fst vs).map Prod.fst) (fun c => c.map ((surfs.map Prod.fst).getD · [])) f = 0 := by
  refine @List.count_eq_zero_of_not_mem _ instBEqOfDecidableEq _ _ _ fun h => ?_
  obtain ⟨c, hc, hf'⟩ := List.mem_flatMap.1 h
  exact hf (hm.mem hs c hc f hf')

theorem Made.side (hm : Made srt m edges surfs vs) (f : List Nat) :
    (∃ s ∈ surfs, s.2.Perm f) ↔ ∃ c ∈ m.cells, HasFace c.2 f := by
  constructor
  · rintro ⟨s, hs, h⟩
    obtain ⟨c, hc, hf⟩ := hm.face s hs
    exact ⟨c, hc, s.2, hf, h⟩
  · rintro ⟨c, hc, f', hf', h⟩
    obtain ⟨s, hs, h'⟩ := hm.all c hc f' hf'
    exact ⟨s, hs, h'.trans h⟩

theorem rest_ok (hs : IsSorter srt) (hm : Made srt m edges surfs vs) (hp : Proper m)
    (hb : ∀ f ∈ m.sides, ∃ c ∈ m.cells, HasFace c.2 f.2) (h2 : ∀ f, around m.cells f ≤ 2) :
    ∃ s, rest srt m edges surfs vs = .ok s ∧ StoredAs m s := by
  have hset := setAll_replicate hs hm.good m fun x hx => (hm.side x.2).2 (hb x hx)
  obtain ⟨b, hb1, hb2, hb3⟩ := mark_ok ⟨(srt Prod.fst vs).map Prod.fst, surfs.map Prod.fst,
      fun c => c.map ((surfs.map Prod.fst).getD · []), surfs.map fun s => Gmsh.descOf (listed m.sides s.2)⟩
    ⟨(Lookup.strictSorted_iff_pairwise _).2 hm.good.increasing, by simp⟩ (hm.mem hs) (by
      intro f
      by_cases hf : f ∈ surfs.map Prod.fst
      · obtain ⟨s, hs', rfl⟩ := List.mem_map.1 hf
        exact (hm.occ hs hp s hs').trans_le (h2 _)
      · exact (hm.other hs f hf).trans_le (by omega))
  have hvp := (hs Prod.fst vs).1
  have hv2 : vs.map Prod.snd = prisms m := by
    have h := hm.vols
    generalize prisms m = ps at h
    clear * - h
    induction h with
    | nil => rfl
    | cons h _ ih => rw [List.map_cons, ih, h.1]
  refine ⟨_, by rw [rest, hset, Outcome.bind_ok, hb1, Outcome.bind_ok], ?_⟩
  simp only [List.length_map] at hb2
  refine ⟨⟨rfl, by simp [mkNodes]⟩, hm.edges, ⟨hm.good.increasing, fun s hs' => ⟨hm.face s hs', ?_⟩, hm.good.differ, hm.all⟩,
    ⟨?_, ?_, by simp, ?_⟩, ?_⟩
  · rw [hm.good.ids s hs']
    unfold ids
    rw [List.forall₂_map_left_iff]
    refine List.forall₂_same.2 fun q (hq : q ∈ around2 s.2) => ?_
    exact ⟨_, inst_lb edges hm.good.sorted _ (hm.good.edge s hs' q hq), simplex_perm _⟩
  · dsimp only
    rw [List.map_map, List.pairwise_map]
    exact (hs Prod.fst vs).2.imp fun h => List.not_lt.1 h
  · dsimp only
    rw [List.map_map]
    have e : (((srt Prod.fst vs).map fun v => v.2.2).zip ((srt Prod.fst vs).map
        (Prod.snd ∘ fun v : List Nat × List Nat × Nat × Nat => (v.1, v.2.1)))) =
        (srt Prod.fst vs).map fun v => (v.2.2, v.2.1) := by
      rw [List.zip_map']
      rfl
    rw [e]
    have h := (hvp.map Prod.snd).map fun c : List Nat × Nat × Nat => (c.2, c.1)
    rw [hv2, List.map_map] at h
    refine h.trans (List.Perm.of_eq ?_)
    unfold prisms
    rw [List.map_map]
    exact List.map_id _
  · intro v hv
    obtain ⟨w, hw, rfl⟩ := List.mem_map.1 hv
    exact (hm.vol w (hvp.mem_iff.1 hw)).2
  · dsimp only
    rw [List.forall₂_iff_get]
    refine ⟨by simpa using hb2.symm, fun i hi1 hi2 => ?_⟩
    have hi : i < surfs.length := by simpa using hi1
    obtain ⟨h3, h4, h5, h6⟩ := hb3 i (by simpa using hi) hi2 (by simpa using hi)
    simp only [List.getElem_map] at h3 h4 h5 h6
    rw [hm.occ hs hp _ (List.getElem_mem hi)] at h3
    unfold FaceAs
    simp only [List.get_eq_getElem, List.getElem_map]
    rw [h4, h5, h6, h3]
    cases listed m.sides (surfs[i]).2 <;> simp [Gmsh.descOf, BDesc.mk3, BDesc.default]

theorem rest_ub (hs : IsSorter srt) (hm : Made srt m edges surfs vs) (hp : Proper m)
    (hb : ∀ f ∈ m.sides, ∃ c ∈ m.cells, HasFace c.2 f.2) (f : List Nat) (h2 : 2 < around m.cells f) :
    (rest srt m edges surfs vs).IsUB := by
  have hset := setAll_replicate hs hm.good m fun x hx => (hm.side x.2).2 (hb x hx)
  have hub := mark_ub ⟨(srt Prod.fst vs).map Prod.fst, surfs.map Prod.fst,
      fun c => c.map ((surfs.map Prod.fst).getD · []), surfs.map fun s => Gmsh.descOf (listed m.sides s.2)⟩
    ⟨(Lookup.strictSorted_iff_pairwise _).2 hm.good.increasing, by simp⟩ (hm.mem hs) (by
      intro h
      have hpos : 0 < around m.cells f := by omega
      obtain ⟨c, hc, hf⟩ := List.countP_pos_iff.1 hpos
      obtain ⟨s, hs', hperm⟩ := (hm.side f).2 ⟨c, hc, by simpa using hf⟩
      have := h s.1
      simp only at this
      rw [hm.occ hs hp s hs', around_perm _ hperm] at this
      omega)
  rw [rest, hset, Outcome.bind_ok]
  cases h : Neighbours.markInternal ⟨(srt Prod.fst vs).map Prod.fst, surfs.map Prod.fst,
      fun c => c.map ((surfs.map Prod.fst).getD · []), surfs.map fun s => Gmsh.descOf (listed m.sides s.2)⟩ with
  | ok _ => rw [h] at hub; exact hub.elim
  | throws _ => rw [h] at hub; exact hub.elim
  | ub _ => trivial

theorem begins_iff {x f : List Nat} (hx : x.Nodup) (hf : f.Nodup) : Begins x f ↔ simplex x <+: simplex f := by
  constructor
  · rintro ⟨t, hp, ht⟩
    have hn := hp.nodup_iff.1 hf
    rw [List.nodup_append] at hn
    refine ⟨simplex t, (simplex_eq ?_ ?_).symm⟩
    · rw [List.pairwise_append]
      exact ⟨simplex_sorted x hx, simplex_sorted t hn.2.1, fun i hi j hj =>
        ht i ((simplex_perm x).mem_iff.1 hi) j ((simplex_perm t).mem_iff.1 hj)⟩
    · exact ((simplex_perm x).append (simplex_perm t)).trans hp.symm
  · rintro ⟨t, ht⟩
    have hs := simplex_sorted f hf
    rw [← ht, List.pairwise_append] at hs
    refine ⟨t, ?_, fun i hi j hj => hs.2.2 i ((simplex_perm x).mem_iff.2 hi) j hj⟩
    exact (simplex_perm f).symm.trans ((List.Perm.of_eq ht.symm).trans ((simplex_perm x).append_right t))

theorem Made.begins (hm : Made srt m edges surfs vs) {x : List Nat} (hx : x.Nodup) :
    (∃ s ∈ surfs, simplex x <+: simplex s.2) ↔ ∃ c ∈ m.cells, ∃ f ∈ facesOf c.2, Begins x f := by
  constructor
  · rintro ⟨s, hs, h⟩
    obtain ⟨c, hc, hf⟩ := hm.face s hs
    exact ⟨c, hc, s.2, hf, (begins_iff hx (hm.good.face s hs).2).2 h⟩
  · rintro ⟨c, hc, f, hf, t, h1, h2⟩
    obtain ⟨s, hs, h⟩ := hm.all c hc f hf
    exact ⟨s, hs, (begins_iff hx (hm.good.face s hs).2).1 ⟨t, h.trans h1, h2⟩⟩

/-- The first side that is no face decides. -/
theorem rest_bad (hs : IsSorter srt) (hm : Made srt m edges surfs vs) (hp : Proper m)
    (A B : List ((Nat × Nat) × List Nat)) (x : (Nat × Nat) × List Nat) (he : m.sides = A ++ x :: B)
    (hA : ∀ f ∈ A, ∃ c ∈ m.cells, HasFace c.2 f.2) (hx : ∀ c ∈ m.cells, ¬ HasFace c.2 x.2) :
    ((∀ c ∈ m.cells, ∀ f ∈ facesOf c.2, ¬ Begins x.2 f) → (rest srt m edges surfs vs).Throws) ∧
    ((∃ c ∈ m.cells, ∃ f ∈ facesOf c.2, Begins x.2 f) → (rest srt m edges surfs vs).IsUB) := by
  have hxn := sides_ok m hp x (by rw [he]; simp)
  obtain ⟨r, hr1, _, _⟩ := setAll_spec hs hm.good (A.map fun x => (x.2, BDesc.mk3 x.1.1 x.1.2 true))
    (List.replicate surfs.length BDesc.default) (by simp) (by
      intro y hy
      obtain ⟨z, hz, rfl⟩ := List.mem_map.1 hy
      exact (hm.side z.2).2 (hA z hz))
  have hcase := find_cases hs hm.good x.2 (fun s hs' hperm => by
    obtain ⟨c, hc, h⟩ := (hm.side x.2).1 ⟨s, hs', hperm⟩
    exact hx c hc h)
  have hset : setAll (table srt surfs) (wanted m) (List.replicate surfs.length BDesc.default) =
      setAll (table srt surfs) ((x.2, BDesc.mk3 x.1.1 x.1.2 true) :: B.map fun x => (x.2, BDesc.mk3 x.1.1 x.1.2 true)) r := by
    rw [wanted, he, List.map_append, List.map_cons, setAll_append, hr1, Outcome.bind_ok]
  rw [rest, hset, setAll]
  constructor
  · intro h
    rw [hcase.1 fun s hs' h' => by
      obtain ⟨c, hc, f, hf, hb⟩ := (hm.begins hxn).1 ⟨s, hs', h'⟩
      exact h c hc f hf hb]
    trivial
  · intro h
    have hub := hcase.2 ((hm.begins hxn).2 h)
    cases h' : find (table srt surfs) x.2 with
    | ok _ => rw [h'] at hub; exact hub.elim
    | throws _ => rw [h'] at hub; exact hub.elim
    | ub _ => trivial

end

/-- The sort by insertion. -/
def bySort : Sorter := fun key l => Sort.sortBy (fun x y => decide (key x < key y)) l

theorem isSorter_bySort : IsSorter bySort := by
  intro α key l
  refine ⟨Sort.sortBy_perm _ _, ?_⟩
  have := Sort.sortBy_weak (fun x y : α => decide (key x < key y))
    (by intro a b; simp only [decide_eq_true_eq, decide_eq_false_iff_not]; exact fun h => not_lt.2 h.le)
    (by intro a b c; simp only [decide_eq_false_iff_not, not_lt]; exact fun h h' => le_trans h h') l
  refine this.imp ?_
  intro a b h
  simpa using h

/-- Elements that are no prisms make no difference. -/
theorem load_filter (g : Model K) : load srt g = load srt { g with regions := g.regions.map fun r =>
    { r with blocks := r.blocks.filter fun b => b.type = 6 } } := by
  have key : ∀ (tab : List (Option Nat)) (r : Region × Nat), regionPrisms tab ({ r.1 with blocks := r.1.blocks.filter fun b => b.type = 6 }, r.2) =
      regionPrisms tab r := by
    rintro tab ⟨r, k⟩
    unfold regionPrisms
    dsimp only
    generalize r.blocks = bs
    have h2 : ∀ bs : List Block, (traverse (fun b => if b.type = 6 then (elements tab 6 b).bind fun es =>
        .ok (es.map fun e => (e, k, r.tag)) else .ok []) (bs.filter fun b => b.type = 6)).bind (fun l => .ok l.flatten) =
        (traverse (fun b => if b.type = 6 then (elements tab 6 b).bind fun es =>
        .ok (es.map fun e => (e, k, r.tag)) else .ok []) bs).bind (fun l => .ok l.flatten) := by
      intro bs
      induction bs with
      | nil => rfl
      | cons b bs ih =>
        by_cases hb : b.type = 6
        · rw [List.filter_cons_of_pos (by simpa using hb), traverse, traverse, if_pos hb]
          cases elements tab 6 b with
          | throws _ => rfl
          | ub _ => rfl
          | ok es =>
            simp only [Outcome.bind_ok]
            revert ih
            generalize traverse _ (bs.filter fun b => b.type = 6) = o1
            generalize traverse _ bs = o2
            intro ih
            cases o1 <;> cases o2 <;> simp_all [Outcome.bind]
        · rw [List.filter_cons_of_neg (by simpa using hb), ih, traverse, if_neg hb, Outcome.bind_ok]
          cases traverse _ bs <;> simp [Outcome.bind]
    exact h2 bs
  have h2 : ∀ (tab : List (Option Nat)) (rs : List Region) (k : Nat), traverse (regionPrisms tab)
      ((rs.map fun r => { r with blocks := r.blocks.filter fun b => b.type = 6 }).zipIdx k) =
      traverse (regionPrisms tab) (rs.zipIdx k) := by
    intro tab rs
    induction rs with
    | nil => intro k; rfl
    | cons r rs ih =>
      intro k
      rw [List.map_cons, List.zipIdx_cons, List.zipIdx_cons, traverse, traverse, ih, key tab (r, k)]
  unfold load
  dsimp only
  rw [h2]
  rfl

end
end Verif.GmshPrism
