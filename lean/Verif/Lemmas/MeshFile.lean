import Mathlib.Data.List.Lex
import Mathlib.Tactic.IntervalCases
import Verif.Spec.MeshFile
import Verif.Spec.Order
import Verif.Lemmas.Sort
import Verif.Props.Lookup
import Verif.Props.Neighbours
/-! Helper lemmas for the mesh files. -/
namespace Verif.MeshFile
open Verif.Lookup Verif.MeshTopo Verif.Spec

theorem inst_eq : (inferInstance : DecidableLT (List Nat)) =
    (@LinearOrder.toDecidableLT (List Nat) inferInstance) := Subsingleton.elim _ _

theorem deq_eq : (fun a b => instDecidableEqList a b : DecidableEq (List Nat)) =
    (fun a b => LinearOrder.toDecidableEq a b) := Subsingleton.elim _ _

theorem find_iff (v : List (List Nat)) (hs : v.Pairwise (· < ·)) (x : List Nat) (i : Nat) :
    findElementId v x = (true, Ident.Ident.mk' i) ↔ v[i]? = some x := by
  have := c03_found_iff v ((strictSorted_iff_pairwise v).2 hs) x i
  rw [← inst_eq] at this
  exact this

theorem find_none (v : List (List Nat)) (hs : v.Pairwise (· < ·)) (x : List Nat) :
    (findElementId v x).1 = false ↔ x ∉ v := by
  have := (c03_not_found_iff v ((strictSorted_iff_pairwise v).2 hs) x).1
  rw [← inst_eq] at this
  exact this

theorem lookup_of_get (v : List (List Nat)) (hs : v.Pairwise (· < ·)) (x : List Nat) (i : Nat) (h : v[i]? = some x) :
    lookup v x = .ok (Ident.Ident.mk' i) := by
  unfold lookup
  rw [(find_iff v hs x i).2 h]
  rfl

theorem mark_ok (m : Mesh (List Nat) (List Nat)) (hw : WF m)
    (hm : ∀ c ∈ m.cells, ∀ f ∈ m.facesOf c, f ∈ m.faces) (h2 : ∀ f, occurrences m.cells m.facesOf f ≤ 2) :
    ∃ b, Neighbours.markInternal m = .ok b ∧ b.length = m.binfo.length ∧
      ∀ i (h : i < m.faces.length) (hb : i < b.length) (hb' : i < m.binfo.length),
        (b[i]).isInt = ((m.binfo[i]).isInt || ((m.binfo[i]).isB && occurrences m.cells m.facesOf m.faces[i] == 2)) ∧
        (b[i]).id = (m.binfo[i]).id ∧ (b[i]).tag = (m.binfo[i]).tag ∧ (b[i]).isB = (m.binfo[i]).isB := by
  have := (Neighbours.c16_mark_internal m hw hm).1
  rw [← inst_eq, ← deq_eq] at this
  exact this h2

theorem mark_ub (m : Mesh (List Nat) (List Nat)) (hw : WF m)
    (hm : ∀ c ∈ m.cells, ∀ f ∈ m.facesOf c, f ∈ m.faces) (h2 : ¬ ∀ f, occurrences m.cells m.facesOf f ≤ 2) :
    (Neighbours.markInternal m).IsUB := by
  have := (Neighbours.c16_mark_internal m hw hm).2
  rw [← inst_eq, ← deq_eq] at this
  exact this h2

/-! ### Sorting -/

theorem simplex_perm (l : List Nat) : (simplex l).Perm l := Sort.sortBy_perm _ _

theorem simplex_sorted (l : List Nat) (h : l.Nodup) : (simplex l).Pairwise (· < ·) := by
  have := Sort.sortBy_sorted' (fun x y : Nat => decide (x < y)) (by simp; omega) l
    (h.imp (by intro a b hab; simp; omega))
  simpa [simplex] using this

theorem sorted_perm_eq {a b : List Nat} (ha : a.Pairwise (· < ·)) (hb : b.Pairwise (· < ·)) (h : a.Perm b) : a = b :=
  strict_ext a b ha hb fun x => h.mem_iff

theorem simplex_eq {l e : List Nat} (he : e.Pairwise (· < ·)) (h : e.Perm l) : simplex l = e :=
  sorted_perm_eq (simplex_sorted l (h.nodup_iff.1 (he.imp Nat.ne_of_lt))) he ((simplex_perm l).trans h.symm)

theorem sortBy_lists_le (l : List (List Nat)) : (Sort.sortBy (fun x y => decide (x < y)) l).Pairwise (· ≤ ·) := by
  have := Sort.sortBy_weak (fun x y : List Nat => decide (x < y))
    (by intro a b; simp only [decide_eq_true_eq, decide_eq_false_iff_not]; exact fun h => not_lt.2 h.le)
    (by intro a b c; simp only [decide_eq_false_iff_not, not_lt]; exact le_trans) l
  refine this.imp ?_
  intro a b h
  simpa using h

theorem sortUniq_sorted (l : List (List Nat)) : (sortUniq l).Pairwise (· < ·) := by
  have := unique_sorted _ (sortBy_lists_le l)
  rw [← deq_eq] at this
  exact this

theorem mem_sortUniq (l : List (List Nat)) (x : List Nat) : x ∈ sortUniq l ↔ x ∈ l := by
  have := mem_unique x (Sort.sortBy (fun x y => decide (x < y)) l)
  rw [← deq_eq] at this
  exact this.trans (Sort.sortBy_perm _ _).mem_iff

/-! ### The boundary table -/

theorem flag_spec (faces : List (List Nat)) (hs : faces.Pairwise (· < ·)) (xs : List (List Nat × Nat))
    (info : List BDesc) (hl : info.length = faces.length) (hx : ∀ x ∈ xs, x.1 ∈ faces) :
    (flag faces xs info).1 = true ∧ (flag faces xs info).2.length = faces.length ∧
    ∀ (i : Nat) (f : List Nat), faces[i]? = some f → (flag faces xs info).2[i]? =
      match (xs.filter fun x => decide (x.1 = f)).getLast? with
      | some x => some (BDesc.mk2 x.2 true)
      | none => info[i]? := by
  induction xs generalizing info with
  | nil => exact ⟨rfl, hl, fun i f _ => rfl⟩
  | cons x xs ih =>
    obtain ⟨k, hk⟩ := List.mem_iff_getElem?.1 (hx x (by simp))
    have hf := (find_iff faces hs x.1 k).2 hk
    have hkl : k < faces.length := (List.getElem?_eq_some_iff.1 hk).1
    have hstep : flag faces (x :: xs) info = flag faces xs (info.set k (BDesc.mk2 x.2 true)) := by
      rw [flag]; simp only [hf]; rfl
    obtain ⟨h1, h2, h3⟩ := ih (info.set k (BDesc.mk2 x.2 true)) (by simpa using hl)
      (fun y hy => hx y (List.mem_cons_of_mem _ hy))
    rw [hstep]
    refine ⟨h1, h2, fun i f hi => ?_⟩
    rw [h3 i f hi]
    have key : k = i ↔ x.1 = f := by
      constructor
      · rintro rfl; rw [hk] at hi; simpa using hi
      · rintro rfl
        have := ((find_iff faces hs x.1 i).2 hi).symm.trans hf
        simp only [Ident.Ident.mk', Prod.mk.injEq, Ident.Ident.mk.injEq] at this
        exact this.2.1.symm
    by_cases hxf : x.1 = f
    · have hki := key.2 hxf
      subst hki
      simp only [List.filter_cons, hxf, decide_true, if_true]
      cases hg : (xs.filter fun x => decide (x.1 = f)).getLast? with
      | none =>
        rw [List.getLast?_eq_none_iff] at hg
        rw [hg]
        simp [List.getElem?_set, hl, hkl]
      | some y =>
        rw [List.getLast?_cons, hg]
        rfl
    · have hne : k ≠ i := fun h => hxf (key.1 h)
      simp only [List.filter_cons, hxf, decide_false, Bool.false_eq_true, if_false]
      rw [List.getElem?_set_ne hne]

theorem flag_fails (faces : List (List Nat)) (hs : faces.Pairwise (· < ·)) (xs : List (List Nat × Nat))
    (info : List BDesc) (hl : info.length = faces.length) (hx : ¬ ∀ x ∈ xs, x.1 ∈ faces) :
    (flag faces xs info).1 = false ∧ (flag faces xs info).2.length = faces.length := by
  induction xs generalizing info with
  | nil => simp at hx
  | cons x xs ih =>
    by_cases hm : x.1 ∈ faces
    · obtain ⟨k, hk⟩ := List.mem_iff_getElem?.1 hm
      have hf := (find_iff faces hs x.1 k).2 hk
      have hstep : flag faces (x :: xs) info = flag faces xs (info.set k (BDesc.mk2 x.2 true)) := by
        rw [flag]; simp only [hf]; rfl
      rw [hstep]
      refine ih _ (by simpa using hl) fun h => hx fun y hy => ?_
      rcases List.mem_cons.1 hy with rfl | hy
      · exact hm
      · exact h y hy
    · have := (find_none faces hs x.1).2 hm
      rw [flag]
      simp only [this, if_true]
      exact ⟨trivial, hl⟩

/-! ### Reading -/

theorem ulong_nat (n : Nat) (h : n < 2 ^ 64) : ulong (n : Int) = n := by
  unfold ulong
  rw [if_pos (by simpa using h)]
  omega

section
variable {K : Type} [Ring K]

theorem readNat_tok (pad : Bool) (n : Nat) (h : n < 2 ^ 64) (ts : List (Tok K)) :
    readNat pad (natTok n :: ts) = .ok (n, ts) := by
  simp only [natTok, readNat, ulong_nat n h]

theorem readNats_toks (pad : Bool) (l : List Nat) (h : ∀ n ∈ l, n < 2 ^ 64) (ts : List (Tok K)) :
    readNats pad l.length (l.map natTok ++ ts) = .ok (l, ts) := by
  induction l with
  | nil => rfl
  | cons n l ih =>
    rw [List.length_cons, List.map_cons, List.cons_append, readNats, readNat_tok pad n (h n (by simp))]
    simp only [Outcome.bind_ok]
    rw [ih fun k hk => h k (List.mem_cons_of_mem _ hk)]
    rfl

theorem readLines_toks {α : Type} (pad : Bool) (w : Nat) (f : α → List Nat) (xs : List α)
    (hw : ∀ x ∈ xs, (f x).length = w) (h : ∀ x ∈ xs, ∀ n ∈ f x, n < 2 ^ 64) (ts : List (Tok K)) :
    readLines pad w xs.length ((xs.flatMap fun x => (f x).map natTok) ++ ts) = .ok (xs.map f, ts) := by
  induction xs with
  | nil => rfl
  | cons x xs ih =>
    rw [List.length_cons, List.flatMap_cons, List.append_assoc, readLines]
    have := readNats_toks pad (f x) (h x (by simp)) ((xs.flatMap fun x => (f x).map natTok) ++ ts)
    rw [hw x (by simp)] at this
    rw [this]
    simp only [Outcome.bind_ok]
    rw [ih (fun y hy => hw y (List.mem_cons_of_mem _ hy)) (fun y hy => h y (List.mem_cons_of_mem _ hy))]
    rfl

theorem readPoint_toks (pad : Bool) (p q : List K) (pt ts : List (Tok K)) (h : List.Forall₂ CoordTok pt (p ++ q)) :
    ∃ pt', readPoint pad p.length (pt ++ ts) = .ok (p, pt' ++ ts) ∧ List.Forall₂ CoordTok pt' q := by
  induction p generalizing pt with
  | nil => exact ⟨pt, rfl, h⟩
  | cons x p ih =>
    cases h with
    | @cons t _ pt _ hx ht =>
      obtain ⟨pt', h1, h2⟩ := ih pt ht
      refine ⟨pt', ?_, h2⟩
      have hr : readCoord pad (t :: (pt ++ ts)) = .ok (x, pt ++ ts) := by
        cases t with
        | int z => simp only [CoordTok] at hx; simp only [readCoord, hx]
        | real i y r => simp only [CoordTok] at hx; simp only [readCoord, hx]
        | frac y => exact hx.elim
        | word s => exact hx.elim
      rw [List.length_cons, List.cons_append, readPoint, hr]
      simp only [Outcome.bind_ok, h1, mul_one]

theorem readPoints_toks (pad : Bool) (dim : Nat) (ps : List (List K)) (hd : ∀ p ∈ ps, p.length = dim)
    (pt ts : List (Tok K)) (h : List.Forall₂ CoordTok pt ps.flatten) :
    readPoints pad dim ps.length (pt ++ ts) = .ok (ps, ts) := by
  induction ps generalizing pt with
  | nil =>
    cases h
    rfl
  | cons p ps ih =>
    rw [List.flatten_cons] at h
    obtain ⟨pt', h1, h2⟩ := readPoint_toks pad p _ pt ts h
    rw [hd p (by simp)] at h1
    rw [List.length_cons, readPoints, h1]
    simp only [Outcome.bind_ok]
    rw [ih (fun q hq => hd q (List.mem_cons_of_mem _ hq)) pt' h2]
    rfl

theorem readCount_tok (pad : Bool) (cap n : Nat) (hc : cap < 2 ^ 64) (h : n ≤ cap) (ts : List (Tok K)) :
    readCount pad cap (natTok n :: ts) = .ok (n, ts) := by
  unfold readCount
  rw [readNat_tok pad n (by omega)]
  simp only [Outcome.bind_ok]
  rw [if_neg (by omega)]

theorem readRaw_toks (pad : Bool) (cap dim nc nb wc wb : Nat) (line : Nat × List Nat → List (Tok K))
    (f : Nat × List Nat → List Nat) (m : FileMesh K) (hm : FileOk cap dim nc nb m)
    (hline : ∀ x, line x = (f x).map natTok)
    (hc : ∀ x ∈ m.cells, (f x).length = wc ∧ ∀ n ∈ f x, n < 2 ^ 64)
    (hb : ∀ x ∈ m.bnd, (f x).length = wb ∧ ∀ n ∈ f x, n < 2 ^ 64) (toks : List (Tok K)) (ht : TextOf line toks m) :
    readRaw pad cap dim wc wb toks = .ok ⟨m.points, m.cells.map f, m.bnd.map f⟩ := by
  obtain ⟨pt, rest, hpt, rfl⟩ := ht
  have hl : line = fun x => (f x).map natTok := funext hline
  unfold readRaw
  rw [readCount_tok pad cap _ hm.bound hm.npoints]
  simp only [Outcome.bind_ok]
  rw [readPoints_toks pad dim m.points hm.dim pt _ hpt]
  simp only [Outcome.bind_ok]
  rw [readCount_tok pad cap _ hm.bound hm.ncells]
  simp only [Outcome.bind_ok]
  rw [hl, readLines_toks pad wc f m.cells (fun x hx => (hc x hx).1) (fun x hx => (hc x hx).2)]
  simp only [Outcome.bind_ok]
  rw [readCount_tok pad cap _ hm.bound hm.nbnd]
  simp only [Outcome.bind_ok]
  rw [readLines_toks pad wb f m.bnd (fun x hx => (hb x hx).1) (fun x hx => (hb x hx).2)]
  rfl

/-- The numbers on a line of a Netgen file. -/
def netgenNums (x : Nat × List Nat) : List Nat := x.1 :: x.2.map (· + 1)

theorem netgenLine_eq (x : Nat × List Nat) : (netgenLine x : List (Tok K)) = (netgenNums x).map natTok := by
  simp [netgenLine, netgenNums, Function.comp_def]

theorem netgenNums_ok {cap np : Nat} (hcap : cap < 2 ^ 64) (hnp : np ≤ cap) (x : Nat × List Nat) (n : Nat)
    (h1 : x.1 < 2 ^ 64) (h2 : x.2.length = n) (h3 : ∀ i ∈ x.2, i < np) :
    (netgenNums x).length = n + 1 ∧ ∀ k ∈ netgenNums x, k < 2 ^ 64 := by
  refine ⟨by simp [netgenNums, h2], fun k hk => ?_⟩
  simp only [netgenNums, List.mem_cons, List.mem_map] at hk
  rcases hk with rfl | ⟨i, hi, rfl⟩
  · exact h1
  · have := h3 i hi; omega

theorem readNetgen (pad : Bool) (cap dim nc nb : Nat) (m : FileMesh K) (hm : FileOk cap dim nc nb m)
    (toks : List (Tok K)) (ht : TextOf netgenLine toks m) :
    readRaw pad cap dim (nc + 1) (nb + 1) toks = .ok ⟨m.points, m.cells.map netgenNums, m.bnd.map netgenNums⟩ :=
  readRaw_toks pad cap dim nc nb _ _ netgenLine netgenNums m hm netgenLine_eq
    (fun x hx => netgenNums_ok hm.bound hm.npoints x nc (hm.cell x hx).1 (hm.cell x hx).2.1 (hm.cell x hx).2.2.2)
    (fun x hx => netgenNums_ok hm.bound hm.npoints x nb (hm.face x hx).1 (hm.face x hx).2.1 (hm.face x hx).2.2.2)
    toks ht

theorem readCartesian (pad : Bool) (cap dim nc nb : Nat) (m : FileMesh K) (hm : FileOk cap dim nc nb m)
    (toks : List (Tok K)) (ht : TextOf cartesianLine toks m) :
    readRaw pad cap dim nc nb toks = .ok ⟨m.points, m.cells.map Prod.snd, m.bnd.map Prod.snd⟩ := by
  have hb := hm.bound
  have hp := hm.npoints
  exact readRaw_toks pad cap dim nc nb _ _ cartesianLine Prod.snd m hm (fun _ => rfl)
    (fun x hx => ⟨(hm.cell x hx).2.1, fun n hn => by have := (hm.cell x hx).2.2.2 n hn; omega⟩)
    (fun x hx => ⟨(hm.face x hx).2.1, fun n hn => by have := (hm.face x hx).2.2.2 n hn; omega⟩) toks ht

theorem pred64_succ (i : Nat) (h : i < 2 ^ 64) : Fvca6.pred64 (i + 1) = i := by
  unfold Fvca6.pred64
  rw [Nat.add_assoc, show 1 + 18446744073709551615 = 18446744073709551616 from rfl, Nat.add_mod_right]
  exact Nat.mod_eq_of_lt h

theorem map_pred64 (l : List Nat) (h : ∀ i ∈ l, i < 2 ^ 64) : (l.map (· + 1)).map Fvca6.pred64 = l := by
  induction l with
  | nil => rfl
  | cons i l ih =>
    rw [List.map_cons, List.map_cons, pred64_succ i (h i (by simp)), ih fun k hk => h k (List.mem_cons_of_mem _ hk)]

theorem corners1_nums (x : Nat × List Nat) (h : ∀ i ∈ x.2, i < 2 ^ 64) : corners1 (netgenNums x) = x.2 := by
  unfold corners1 netgenNums
  rw [List.tail_cons, map_pred64 x.2 h]

theorem small {cap dim nc nb : Nat} {m : FileMesh K} (hm : FileOk cap dim nc nb m) :
    (∀ x ∈ m.cells, ∀ i ∈ x.2, i < 2 ^ 64) ∧ ∀ x ∈ m.bnd, ∀ i ∈ x.2, i < 2 ^ 64 := by
  have hb := hm.bound
  have hp := hm.npoints
  exact ⟨fun x hx i hi => by have := (hm.cell x hx).2.2.2 i hi; omega,
    fun x hx i hi => by have := (hm.face x hx).2.2.2 i hi; omega⟩

theorem cells_corners {cap dim nc nb : Nat} {m : FileMesh K} (hm : FileOk cap dim nc nb m) :
    (m.cells.map netgenNums).map corners1 = m.cells.map Prod.snd := by
  rw [List.map_map]
  exact List.map_congr_left fun x hx => corners1_nums x ((small hm).1 x hx)

theorem lines_num {cap dim nc nb : Nat} {m : FileMesh K} (hm : FileOk cap dim nc nb m) :
    ((m.bnd.map netgenNums).map fun l => (simplex (corners1 l), l.headD 0)) =
      m.bnd.map fun x => (simplex x.2, x.1) := by
  rw [List.map_map]
  refine List.map_congr_left fun x hx => ?_
  simp only [Function.comp, corners1_nums x ((small hm).2 x hx)]
  rfl

theorem vols_num {cap dim nc nb : Nat} {m : FileMesh K} (hm : FileOk cap dim nc nb m) :
    ((m.cells.map netgenNums).map fun l => (simplex (corners1 l), l.headD 0)) =
      m.cells.map fun x => (simplex x.2, x.1) := by
  rw [List.map_map]
  refine List.map_congr_left fun x hx => ?_
  simp only [Function.comp, corners1_nums x ((small hm).1 x hx)]
  rfl

end

/-! ### Sub-simplices -/

theorem subSimplex_full (p e : List Nat) (hp : p.Nodup) : SubSimplex p.length e p ↔ e = simplex p := by
  constructor
  · rintro ⟨h1, h2, h3⟩
    have hsub : e.Subperm p := List.subperm_of_subset (h1.imp Nat.ne_of_lt) h3
    exact (simplex_eq h1 (hsub.perm_of_length_le (by omega))).symm
  · rintro rfl
    exact ⟨simplex_sorted p hp, (simplex_perm p).length_eq, fun i hi => (simplex_perm p).mem_iff.1 hi⟩

theorem subSimplex_of_pick (p ix : List Nat) (h : (pick p ix).Nodup) (hs : ∀ i ∈ pick p ix, i ∈ p) :
    SubSimplex ix.length (simplex (pick p ix)) p :=
  ⟨simplex_sorted _ h, by rw [(simplex_perm _).length_eq, pick, List.length_map],
    fun i hi => hs i ((simplex_perm _).mem_iff.1 hi)⟩

theorem pair_simplex {x y : Nat} (h : x < y) : simplex [x, y] = [x, y] ∧ simplex [y, x] = [x, y] :=
  ⟨simplex_eq (by simpa using h) (.refl _), simplex_eq (by simpa using h) (.swap _ _ _)⟩

theorem mem_triEdges (p e : List Nat) (hl : p.length = 3) (hp : p.Nodup) : e ∈ triEdges p ↔ SubSimplex 2 e p := by
  match p, hl with
  | [a, b, c], _ =>
    constructor
    · intro h
      simp only [triEdges, List.map_cons, List.map_nil, List.mem_cons, List.not_mem_nil, or_false] at h
      simp only [List.nodup_cons, List.mem_cons, List.not_mem_nil, or_false, not_or, not_false_eq_true,
        List.nodup_nil, and_true] at hp
      rcases h with rfl | rfl | rfl
      all_goals exact subSimplex_of_pick [a, b, c] _ (by simp [pick]; tauto) (by simp [pick])
    · rintro ⟨h1, h2, h3⟩
      match e, h2 with
      | [x, y], _ =>
        have hxy : x < y := by simpa using h1
        have hx := h3 x (by simp)
        have hy := h3 y (by simp)
        simp only [List.mem_cons, List.not_mem_nil, or_false] at hx hy
        have h12 := pair_simplex hxy
        simp only [triEdges, pick, List.map_cons, List.map_nil, List.mem_cons, List.not_mem_nil, or_false,
          List.getD_cons_zero, List.getD_cons_succ]
        rcases hx with rfl | rfl | rfl <;> rcases hy with rfl | rfl | rfl <;>
          first
          | omega
          | simp only [h12, true_or, or_true]

theorem mem_tetEdges (p e : List Nat) (hl : p.length = 4) (hp : p.Nodup) : e ∈ tetEdges p ↔ SubSimplex 2 e p := by
  match p, hl with
  | [a, b, c, d], _ =>
    constructor
    · intro h
      simp only [tetEdges, List.map_cons, List.map_nil, List.mem_cons, List.not_mem_nil, or_false] at h
      simp only [List.nodup_cons, List.mem_cons, List.not_mem_nil, or_false, not_or, not_false_eq_true,
        List.nodup_nil, and_true] at hp
      rcases h with rfl | rfl | rfl | rfl | rfl | rfl
      all_goals exact subSimplex_of_pick [a, b, c, d] _ (by simp [pick]; tauto) (by simp [pick])
    · rintro ⟨h1, h2, h3⟩
      match e, h2 with
      | [x, y], _ =>
        have hxy : x < y := by simpa using h1
        have hx := h3 x (by simp)
        have hy := h3 y (by simp)
        simp only [List.mem_cons, List.not_mem_nil, or_false] at hx hy
        have h12 := pair_simplex hxy
        simp only [tetEdges, pick, List.map_cons, List.map_nil, List.mem_cons, List.not_mem_nil, or_false,
          List.getD_cons_zero, List.getD_cons_succ]
        rcases hx with rfl | rfl | rfl | rfl <;> rcases hy with rfl | rfl | rfl | rfl <;>
          first
          | omega
          | simp only [h12, true_or, or_true]

theorem triple_simplex {x y z : Nat} (h : x < y) (h' : y < z) : simplex [x, y, z] = [x, y, z] ∧
    simplex [x, z, y] = [x, y, z] ∧ simplex [y, x, z] = [x, y, z] ∧ simplex [y, z, x] = [x, y, z] ∧
    simplex [z, x, y] = [x, y, z] ∧ simplex [z, y, x] = [x, y, z] := by
  have hs : [x, y, z].Pairwise (· < ·) := by simp; omega
  refine ⟨simplex_eq hs (.refl _), simplex_eq hs ?_, simplex_eq hs ?_, simplex_eq hs ?_, simplex_eq hs ?_,
    simplex_eq hs ?_⟩
  · exact (List.Perm.swap _ _ _).cons _
  · exact List.Perm.swap _ _ _
  · exact (List.Perm.swap _ _ _).trans ((List.Perm.swap _ _ _).cons _)
  · exact ((List.Perm.swap _ _ _).cons _).trans (.swap _ _ _)
  · exact (List.Perm.swap _ _ _).trans (((List.Perm.swap _ _ _).cons _).trans (.swap _ _ _))

theorem mem_tetSurfaces (p e : List Nat) (hl : p.length = 4) (hp : p.Nodup) :
    e ∈ tetSurfaces p ↔ SubSimplex 3 e p := by
  match p, hl with
  | [a, b, c, d], _ =>
    constructor
    · intro h
      simp only [tetSurfaces, List.map_cons, List.map_nil, List.mem_cons, List.not_mem_nil, or_false] at h
      simp only [List.nodup_cons, List.mem_cons, List.not_mem_nil, or_false, not_or, not_false_eq_true,
        List.nodup_nil, and_true] at hp
      rcases h with rfl | rfl | rfl | rfl
      all_goals exact subSimplex_of_pick [a, b, c, d] _ (by simp [pick]; tauto) (by simp [pick])
    · rintro ⟨h1, h2, h3⟩
      match e, h2 with
      | [x, y, z], _ =>
        have hxy : x < y ∧ y < z := by simp at h1; omega
        have hx := h3 x (by simp)
        have hy := h3 y (by simp)
        have hz := h3 z (by simp)
        simp only [List.mem_cons, List.not_mem_nil, or_false] at hx hy hz
        have h12 := triple_simplex hxy.1 hxy.2
        clear h1 h3
        simp only [tetSurfaces, pick, List.map_cons, List.map_nil, List.mem_cons, List.not_mem_nil, or_false,
          List.getD_cons_zero, List.getD_cons_succ]
        rcases hx with rfl | rfl | rfl | rfl <;> rcases hy with rfl | rfl | rfl | rfl <;>
          first
          | omega
          | (rcases hz with rfl | rfl | rfl | rfl <;>
              first
              | omega
              | simp only [h12, true_or, or_true])

theorem tetFaces_perm (p : List Nat) : (tetFaces p).Perm (tetSurfaces p) := by
  unfold tetFaces tetSurfaces
  apply List.Perm.map
  decide

/-! ### Flags of the file -/

theorem simplex_eq_iff {p f : List Nat} (hp : p.Nodup) (hf : f.Pairwise (· < ·)) : simplex p = f ↔ p.Perm f := by
  constructor
  · rintro rfl; exact (simplex_perm p).symm
  · intro h; exact simplex_eq hf h.symm

theorem getLast?_map' {α β : Type} (g : α → β) (l : List α) : (l.map g).getLast? = l.getLast?.map g := by
  induction l with
  | nil => rfl
  | cons x xs ih => rw [List.map_cons, List.getLast?_cons, List.getLast?_cons, ih]; cases xs.getLast? <;> rfl

theorem listed_simplex (bnd : List (Nat × List Nat)) (hn : ∀ x ∈ bnd, x.2.Nodup) (f : List Nat)
    (hf : f.Pairwise (· < ·)) :
    ((bnd.map fun x => (simplex x.2, x.1)).filter fun x => decide (x.1 = f)).getLast?.map Prod.snd =
      listedNumber bnd f := by
  unfold listedNumber
  rw [List.filter_map, getLast?_map', Option.map_map]
  have : (bnd.filter ((fun x : List Nat × Nat => decide (x.1 = f)) ∘ fun x => (simplex x.2, x.1))) =
      bnd.filter fun x => decide (x.2.Perm f) := by
    apply List.filter_congr
    intro x hx
    simp only [Function.comp]
    exact decide_eq_decide.2 (simplex_eq_iff (hn x hx) hf)
  rw [this]
  rfl

/-- The descriptor of a face with the given number in the file. -/
def descOf : Option Nat → BDesc
  | some n => BDesc.mk2 n true
  | none => BDesc.default

theorem flag_replicate (faces : List (List Nat)) (hs : faces.Pairwise (· < ·)) (xs : List (List Nat × Nat))
    (hx : ∀ x ∈ xs, x.1 ∈ faces) :
    (flag faces xs (List.replicate faces.length BDesc.default)).1 = true ∧
    (flag faces xs (List.replicate faces.length BDesc.default)).2 =
      faces.map fun f => descOf ((xs.filter fun x => decide (x.1 = f)).getLast?.map Prod.snd) := by
  obtain ⟨h1, h2, h3⟩ := flag_spec faces hs xs (List.replicate faces.length BDesc.default) (by simp) hx
  refine ⟨h1, List.ext_getElem? fun i => ?_⟩
  by_cases hi : i < faces.length
  · have hfi : faces[i]? = some faces[i] := List.getElem?_eq_getElem hi
    rw [h3 i faces[i] hfi, List.getElem?_map, hfi]
    simp only [Option.map_some]
    cases (xs.filter fun x => decide (x.1 = faces[i])).getLast? with
    | none => simp [descOf, hi]
    | some x => rfl
  · rw [List.getElem?_eq_none (by omega), List.getElem?_eq_none (by simp; omega)]

theorem flaggedAs_map (faces : List (List Nat)) (bnd : List (Nat × List Nat)) :
    FlaggedAs (faces.map fun f => descOf (listedNumber bnd f)) faces bnd := by
  refine ⟨by simp, fun i f d hf hd => ?_⟩
  rw [List.getElem?_map, hf] at hd
  simp only [Option.map_some, Option.some.injEq] at hd
  subst hd
  cases listedNumber bnd f <;> simp [descOf, BDesc.mk2, BDesc.default]

/-! ### Counting the cells around a face -/

theorem tetFaces_sorted (a b c d : Nat) (h : a < b) (h' : b < c) (h'' : c < d) :
    tetFaces [a, b, c, d] = [[b, c, d], [a, c, d], [a, b, d], [a, b, c]] := by
  simp only [tetFaces, pick, List.map_cons, List.map_nil, List.getD_cons_zero, List.getD_cons_succ]
  rw [(triple_simplex h' h'').1, (triple_simplex (h.trans h') h'').1, (triple_simplex h (h'.trans h'')).1,
    (triple_simplex h h').1]

instance (k : Nat) (e p : List Nat) : Decidable (SubSimplex k e p) := by unfold SubSimplex; infer_instance

theorem tetFaces_count [BEq (List Nat)] [LawfulBEq (List Nat)] (p f : List Nat) (hl : p.length = 4) (hp : p.Nodup) :
    (tetFaces (simplex p)).count f = if SubSimplex 3 f p then 1 else 0 := by
  have hsl : (simplex p).length = 4 := (simplex_perm p).length_eq.trans hl
  have hsn : (simplex p).Nodup := (simplex_perm p).nodup_iff.2 hp
  have hss := simplex_sorted p hp
  have hmem : f ∈ tetFaces (simplex p) ↔ SubSimplex 3 f p := by
    rw [(tetFaces_perm _).mem_iff, mem_tetSurfaces _ _ hsl hsn]
    unfold SubSimplex
    simp only [(simplex_perm p).mem_iff]
  have hnd : (tetFaces (simplex p)).Nodup := by
    revert hss
    match simplex p, hsl with
    | [a, b, c, d], _ =>
      intro hss
      have h : a < b ∧ b < c ∧ c < d := by
        simp only [List.pairwise_cons, List.mem_cons, List.not_mem_nil, or_false] at hss
        exact ⟨hss.1 b (by simp), hss.2.1 c (by simp), hss.2.2.1 d rfl⟩
      rw [tetFaces_sorted a b c d h.1 h.2.1 h.2.2]
      simp
      omega
  split
  · next h => exact List.count_eq_one_of_mem hnd (hmem.2 h)
  · next h => exact List.count_eq_zero_of_not_mem fun h' => h (hmem.1 h')

theorem count_cells [BEq (List Nat)] [LawfulBEq (List Nat)] (cells : List (Nat × List Nat))
    (hc : ∀ c ∈ cells, c.2.length = 4 ∧ c.2.Nodup) (f : List Nat) :
    ((cells.map fun c => simplex c.2).flatMap tetFaces).count f =
      if f.Pairwise (· < ·) ∧ f.length = 3 then cellsAround cells f else 0 := by
  unfold cellsAround
  induction cells with
  | nil => simp
  | cons c cells ih =>
    rw [List.map_cons, List.flatMap_cons, List.count_append,
      ih fun x hx => hc x (List.mem_cons_of_mem _ hx),
      tetFaces_count c.2 f (hc c (by simp)).1 (hc c (by simp)).2, List.countP_cons]
    by_cases h1 : f.Pairwise (· < ·) ∧ f.length = 3
    · by_cases h2 : ∀ i ∈ f, i ∈ c.2
      · rw [if_pos h1, if_pos h1, if_pos (show SubSimplex 3 f c.2 from ⟨h1.1, h1.2, h2⟩), if_pos (by simpa using h2)]; omega
      · rw [if_pos h1, if_pos h1, if_neg (fun h : SubSimplex 3 f c.2 => h2 h.2.2), if_neg (by simpa using h2)]; omega
    · rw [if_neg h1, if_neg h1, if_neg (fun h : SubSimplex 3 f c.2 => h1 ⟨h.1, h.2.1⟩)]

theorem occurrences_cells (cells : List (Nat × List Nat)) (hc : ∀ c ∈ cells, c.2.length = 4 ∧ c.2.Nodup)
    (f : List Nat) : occurrences (cells.map fun c => simplex c.2) tetFaces f =
      if f.Pairwise (· < ·) ∧ f.length = 3 then cellsAround cells f else 0 :=
  @count_cells instBEqOfDecidableEq _ cells hc f

theorem occurrences_perm {C F : Type} [DecidableEq F] {l l' : List C} (h : l.Perm l') (g : C → List F) (f : F) :
    occurrences l g f = occurrences l' g f := (h.flatMap_right g).count_eq f

/-! ### Cartesian elements -/

theorem mem_quadEdges (p e : List Nat) : e ∈ quadEdges p ↔ EdgeOf 2 p e := by
  constructor
  · intro h
    simp only [quadEdges, pick, List.map_cons, List.map_nil, List.mem_cons, List.not_mem_nil, or_false] at h
    rcases h with rfl | rfl | rfl | rfl
    · exact ⟨0, 1, 0, by decide, by decide, by decide, rfl, rfl⟩
    · exact ⟨0, 2, 1, by decide, by decide, by decide, rfl, rfl⟩
    · exact ⟨1, 3, 1, by decide, by decide, by decide, rfl, rfl⟩
    · exact ⟨2, 3, 0, by decide, by decide, by decide, rfl, rfl⟩
  · rintro ⟨i, j, k, hk, hi, hb, rfl, rfl⟩
    simp only [quadEdges, pick, List.map_cons, List.map_nil, List.mem_cons, List.not_mem_nil, or_false]
    have hi : i < 4 := hi
    interval_cases k <;> interval_cases i <;> first | (exact absurd hb (by decide)) | simp

theorem mem_hexEdges (p e : List Nat) : e ∈ hexEdges p ↔ EdgeOf 3 p e := by
  constructor
  · intro h
    simp only [hexEdges, pick, List.map_cons, List.map_nil, List.mem_cons, List.not_mem_nil, or_false] at h
    rcases h with rfl | rfl | rfl | rfl | rfl | rfl | rfl | rfl | rfl | rfl | rfl | rfl
    · exact ⟨0, 1, 0, by decide, by decide, by decide, rfl, rfl⟩
    · exact ⟨0, 2, 1, by decide, by decide, by decide, rfl, rfl⟩
    · exact ⟨0, 4, 2, by decide, by decide, by decide, rfl, rfl⟩
    · exact ⟨1, 3, 1, by decide, by decide, by decide, rfl, rfl⟩
    · exact ⟨1, 5, 2, by decide, by decide, by decide, rfl, rfl⟩
    · exact ⟨2, 3, 0, by decide, by decide, by decide, rfl, rfl⟩
    · exact ⟨2, 6, 2, by decide, by decide, by decide, rfl, rfl⟩
    · exact ⟨3, 7, 2, by decide, by decide, by decide, rfl, rfl⟩
    · exact ⟨4, 5, 0, by decide, by decide, by decide, rfl, rfl⟩
    · exact ⟨4, 6, 1, by decide, by decide, by decide, rfl, rfl⟩
    · exact ⟨5, 7, 1, by decide, by decide, by decide, rfl, rfl⟩
    · exact ⟨6, 7, 0, by decide, by decide, by decide, rfl, rfl⟩
  · rintro ⟨i, j, k, hk, hi, hb, rfl, rfl⟩
    simp only [hexEdges, pick, List.map_cons, List.map_nil, List.mem_cons, List.not_mem_nil, or_false]
    have hi : i < 8 := hi
    interval_cases k <;> interval_cases i <;> first | (exact absurd hb (by decide)) | simp

/-- Going around a side, on the level of local numbers. -/
def aroundIx (ix : List Nat) (k : Nat) (b : Bool) : Bool :=
  decide (ix.Perm ((List.range 8).filter fun i => i.testBit k == b)) && ix.length == 4 &&
  (List.range 4).all fun n =>
    let i := ix.getD n 0
    let j := ix.getD ((n + 1) % 4) 0
    decide (i < 8) && decide (j < 8) && (List.range 3).any fun d =>
      (!i.testBit d && j == i + 2 ^ d) || (!j.testBit d && i == j + 2 ^ d)

theorem pick_getD (p ix : List Nat) (n : Nat) (h : n < ix.length) : (pick p ix).getD n 0 = p.getD (ix.getD n 0) 0 := by
  simp [pick, List.getD_eq_getElem?_getD, h]

theorem aroundSide_of_ix (p ix : List Nat) (k : Nat) (b : Bool) (h : aroundIx ix k b = true) :
    AroundSide p k b (pick p ix) := by
  simp only [aroundIx, Bool.and_eq_true, decide_eq_true_eq, beq_iff_eq, List.all_eq_true, List.mem_range,
    List.any_eq_true, Bool.or_eq_true, Bool.not_eq_true'] at h
  obtain ⟨⟨h1, h2⟩, h3⟩ := h
  refine ⟨h1.map _, fun n hn => ?_⟩
  obtain ⟨⟨hi, hj⟩, d, hd, h⟩ := h3 n hn
  rw [pick_getD p ix n (by omega), pick_getD p ix ((n + 1) % 4) (by omega)]
  rcases h with ⟨h4, h5⟩ | ⟨h4, h5⟩
  · exact .inl ⟨_, _, d, hd, hi, h4, h5, rfl⟩
  · exact .inr ⟨_, _, d, hd, hj, h4, h5, rfl⟩

theorem hexSurfaces_around (p f : List Nat) (h : f ∈ hexSurfaces p) : ∃ k b, k < 3 ∧ AroundSide p k b f := by
  simp only [hexSurfaces, List.map_cons, List.map_nil, List.mem_cons, List.not_mem_nil, or_false] at h
  rcases h with rfl | rfl | rfl | rfl | rfl | rfl
  · exact ⟨0, false, by decide, aroundSide_of_ix p _ _ _ (by decide)⟩
  · exact ⟨0, true, by decide, aroundSide_of_ix p _ _ _ (by decide)⟩
  · exact ⟨2, false, by decide, aroundSide_of_ix p _ _ _ (by decide)⟩
  · exact ⟨2, true, by decide, aroundSide_of_ix p _ _ _ (by decide)⟩
  · exact ⟨1, false, by decide, aroundSide_of_ix p _ _ _ (by decide)⟩
  · exact ⟨1, true, by decide, aroundSide_of_ix p _ _ _ (by decide)⟩

theorem hexSurfaces_all (p : List Nat) (k : Nat) (hk : k < 3) (b : Bool) : ∃ f ∈ hexSurfaces p, AroundSide p k b f := by
  have hm : ∀ ix ∈ [[0, 2, 6, 4], [1, 3, 7, 5], [0, 1, 3, 2], [4, 5, 7, 6], [0, 4, 5, 1], [2, 6, 7, 3]],
      pick p ix ∈ hexSurfaces p := fun ix h => List.mem_map_of_mem h
  interval_cases k <;> cases b
  · exact ⟨_, hm [0, 2, 6, 4] (by decide), aroundSide_of_ix p _ _ _ (by decide)⟩
  · exact ⟨_, hm [1, 3, 7, 5] (by decide), aroundSide_of_ix p _ _ _ (by decide)⟩
  · exact ⟨_, hm [0, 4, 5, 1] (by decide), aroundSide_of_ix p _ _ _ (by decide)⟩
  · exact ⟨_, hm [2, 6, 7, 3] (by decide), aroundSide_of_ix p _ _ _ (by decide)⟩
  · exact ⟨_, hm [0, 1, 3, 2] (by decide), aroundSide_of_ix p _ _ _ (by decide)⟩
  · exact ⟨_, hm [4, 5, 7, 6] (by decide), aroundSide_of_ix p _ _ _ (by decide)⟩

theorem collects_sortUniq (l : List (List Nat)) : Collects (sortUniq l) (· ∈ l) :=
  ⟨sortUniq_sorted l, mem_sortUniq l⟩

theorem Collects.congr {l : List (List Nat)} {P Q : List Nat → Prop} (h : Collects l P) (hPQ : ∀ e, P e ↔ Q e) :
    Collects l Q := ⟨h.1, fun e => (h.2 e).trans (hPQ e)⟩

theorem perm_map_right {α β : Type} {g : α → β} {V : List β} {l : List α} (h : V.Perm (l.map g)) :
    ∃ l' : List α, l'.Perm l ∧ V = l'.map g := by
  induction l generalizing V with
  | nil => exact ⟨[], .refl _, by simpa using h⟩
  | cons x l ih =>
    rw [List.map_cons] at h
    obtain ⟨s, t, rfl⟩ := List.append_of_mem (h.mem_iff.2 (List.mem_cons_self ..))
    obtain ⟨l', h1, h2⟩ := ih ((List.perm_middle.symm.trans h).cons_inv)
    obtain ⟨u, v, rfl, rfl, rfl⟩ := List.map_eq_append_iff.1 h2.symm
    exact ⟨u ++ x :: v, List.perm_middle.trans (h1.cons _), by simp⟩

theorem readPoints_nil {K : Type} [Ring K] (dim n : Nat) :
    readPoints true dim n ([] : List (Tok K)) = .ok (List.replicate n (List.replicate dim 0), []) := by
  have hp : ∀ d : Nat, readPoint true d ([] : List (Tok K)) = .ok (List.replicate d 0, []) := by
    intro d
    induction d with
    | zero => rfl
    | succ d ih => simp [readPoint, readCoord, ih, Outcome.bind_ok, List.replicate_succ]
  induction n with
  | zero => rfl
  | succ n ih => simp [readPoints, hp, ih, Outcome.bind_ok, List.replicate_succ]

theorem readRaw_truncated {K : Type} [Ring K] (cap n : Nat) (hc : cap < 2 ^ 64) (hn : n ≤ cap) (dim wc wb : Nat) :
    readRaw true cap dim wc wb ([natTok n] : List (Tok K)) =
      .ok ⟨List.replicate n (List.replicate dim 0), [], []⟩ := by
  unfold readRaw
  rw [readCount_tok true cap n hc hn]
  simp only [Outcome.bind_ok]
  rw [readPoints_nil]
  simp [Outcome.bind_ok, readCount, readNat, readLines]

theorem isSort_sortBy : IsSort (Sort.sortBy fun x y => decide (x.1 < y.1)) := by
  intro l
  refine ⟨Sort.sortBy_perm _ _, ?_⟩
  have := Sort.sortBy_weak (fun x y : List Nat × Nat => decide (x.1 < y.1))
    (by intro a b; simp only [decide_eq_true_eq, decide_eq_false_iff_not]; exact fun h => not_lt.2 h.le)
    (by intro a b c; simp only [decide_eq_false_iff_not, not_lt]; exact fun h h' => le_trans h h') l
  refine this.imp ?_
  intro a b h
  simpa using h

/-- Flags of a container when all listed numbers are zero. -/
theorem flag_zero (S : List (List Nat)) (hS : S.Pairwise (· < ·)) (l : List (List Nat)) (hl : ∀ f ∈ l, f ∈ S) :
    (flag S (l.map fun f => (f, 0)) (List.replicate S.length BDesc.default)).2 =
      S.map fun f => if f ∈ l then BDesc.mk2 0 true else BDesc.default := by
  rw [(flag_replicate S hS _ (by
    intro x hx
    obtain ⟨f, hf, rfl⟩ := List.mem_map.1 hx
    exact hl f hf)).2]
  refine List.map_congr_left fun f _ => ?_
  by_cases hf : f ∈ l
  · rw [if_pos hf]
    have hne : ((l.map fun f => (f, 0)).filter fun x : List Nat × Nat => decide (x.1 = f)) ≠ [] :=
      List.ne_nil_of_mem (List.mem_filter.2 ⟨List.mem_map_of_mem hf, by simp⟩)
    rw [List.getLast?_eq_some_getLast hne]
    have hm := (List.mem_filter.1 (List.getLast_mem hne)).1
    obtain ⟨g, _, hg⟩ := List.mem_map.1 hm
    rw [← hg]
    rfl
  · rw [if_neg hf]
    have : ((l.map fun f => (f, 0)).filter fun x : List Nat × Nat => decide (x.1 = f)) = [] := by
      rw [List.filter_eq_nil_iff]
      intro x hx
      obtain ⟨g, hg, rfl⟩ := List.mem_map.1 hx
      simp only [decide_eq_true_eq]
      rintro rfl
      exact hf hg
    rw [this]
    rfl

theorem hexSurfaces_shared (p q : List Nat) (k : Nat) (hk : k < 3)
    (h : sideCorners p k true = sideCorners q k false) :
    ∃ f, AroundSide p k true f ∧ AroundSide q k false f ∧ f ∈ hexSurfaces p ∧ f ∈ hexSurfaces q := by
  have hm : ∀ (p : List Nat), ∀ ix ∈ [[0, 2, 6, 4], [1, 3, 7, 5], [0, 1, 3, 2], [4, 5, 7, 6], [0, 4, 5, 1], [2, 6, 7, 3]],
      pick p ix ∈ hexSurfaces p := fun p ix h => List.mem_map_of_mem h
  interval_cases k
  · have e : pick p [1, 3, 7, 5] = pick q [0, 2, 6, 4] := by
      have h' : [p.getD 1 0, p.getD 3 0, p.getD 5 0, p.getD 7 0] = [q.getD 0 0, q.getD 2 0, q.getD 4 0, q.getD 6 0] := h
      simp only [List.cons.injEq] at h'
      simp only [pick, List.map_cons, List.map_nil, h'.1, h'.2.1, h'.2.2.1, h'.2.2.2.1]
    exact ⟨_, aroundSide_of_ix p [1, 3, 7, 5] _ _ (by decide), e ▸ aroundSide_of_ix q [0, 2, 6, 4] _ _ (by decide),
      hm p _ (by decide), e ▸ hm q _ (by decide)⟩
  · have e : pick p [2, 6, 7, 3] = pick q [0, 4, 5, 1] := by
      have h' : [p.getD 2 0, p.getD 3 0, p.getD 6 0, p.getD 7 0] = [q.getD 0 0, q.getD 1 0, q.getD 4 0, q.getD 5 0] := h
      simp only [List.cons.injEq] at h'
      simp only [pick, List.map_cons, List.map_nil, h'.1, h'.2.1, h'.2.2.1, h'.2.2.2.1]
    exact ⟨_, aroundSide_of_ix p [2, 6, 7, 3] _ _ (by decide), e ▸ aroundSide_of_ix q [0, 4, 5, 1] _ _ (by decide),
      hm p _ (by decide), e ▸ hm q _ (by decide)⟩
  · have e : pick p [4, 5, 7, 6] = pick q [0, 1, 3, 2] := by
      have h' : [p.getD 4 0, p.getD 5 0, p.getD 6 0, p.getD 7 0] = [q.getD 0 0, q.getD 1 0, q.getD 2 0, q.getD 3 0] := h
      simp only [List.cons.injEq] at h'
      simp only [pick, List.map_cons, List.map_nil, h'.1, h'.2.1, h'.2.2.1, h'.2.2.2.1]
    exact ⟨_, aroundSide_of_ix p [4, 5, 7, 6] _ _ (by decide), e ▸ aroundSide_of_ix q [0, 1, 3, 2] _ _ (by decide),
      hm p _ (by decide), e ▸ hm q _ (by decide)⟩

end Verif.MeshFile
