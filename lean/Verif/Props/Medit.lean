import Verif.Lemmas.Medit3
/-! C154, C155: Medit mesh files. -/
namespace Verif.Props.Medit
open Verif.Medit Verif.Spec Verif.Spec.Medit Verif.MeshFile Verif.MeshTopo
open Verif.Spec.Fvca5 (ordered)
variable {K : Type} [Ring K]

/-- Numbers and words. -/
def ns (l : List Int) : List (Tok ℤ) := l.map .int

/-- A keyword and numbers. -/
def blk (s : String) (l : List Int) : List (Tok ℤ) := .word s :: ns l

/-- A triangle above a square; the boundary edges are given twice. -/
def exBlocks : List (Block ℤ) :=
  [.edges [(7, [0, 1])], .vertices [[0, 0, 0, 0], [1, 0, 0, 0], [1, 1, 0, 0], [0, 1, 0, 0], [0, 2, 0, 5]],
   .polys 3 [([3, 2, 4], 1)], .polys 4 [([0, 1, 2, 3], 2)], .edges [(1, [1, 0]), (2, [1, 2]), (3, [3, 4]), (4, [4, 3])]]

/-- Its blocks. -/
def exTexts : List (List (Tok ℤ)) :=
  [blk "Edges" [1, 1, 2, 7], blk "Vertices" [5, 0, 0, 0, 0, 1, 0, 0, 0, 1, 1, 0, 0, 0, 1, 0, 0, 0, 2, 0, 5],
   blk "Triangles" [1, 4, 3, 5, 1], blk "Quadrilaterals" [1, 1, 2, 3, 4, 2],
   blk "Edges" [4, 2, 1, 1, 2, 3, 2, 4, 5, 3, 5, 4, 4]]

/-- Its text. -/
def exToks : List (Tok ℤ) := head ++ exTexts.flatten ++ [.word "End"]

theorem exTexts_text : List.Forall₂ BlockText exTexts exBlocks := by
  refine .cons rfl (.cons ⟨ns [0, 0, 0, 0, 1, 0, 0, 0, 1, 1, 0, 0, 0, 1, 0, 0, 0, 2, 0, 5], ?_, rfl⟩
    (.cons ⟨"Triangles", rfl, rfl⟩ (.cons ⟨"Quadrilaterals", rfl, rfl⟩ (.cons rfl .nil))))
  simp only [List.flatten_cons, List.cons_append, List.nil_append, List.flatten_nil, ns, List.map_cons, List.map_nil]
  repeat' first | exact List.Forall₂.nil | refine List.Forall₂.cons ?_ ?_
  all_goals rfl

theorem exToks_text : FileText exToks exBlocks := ⟨exTexts, [], exTexts_text, rfl⟩

theorem exBlocks_block : ∀ b ∈ exBlocks, BlockOk 100 b := by
  intro b hb
  simp only [exBlocks, List.mem_cons, List.not_mem_nil, or_false] at hb
  rcases hb with rfl | rfl | rfl | rfl | rfl <;> simp [BlockOk] <;> decide

theorem exBlocks_ok : FileOk 100 exBlocks where
  bound := by decide
  block := exBlocks_block
  once := by decide
  bnd := by
    have h : bndOf exBlocks = [(1, [1, 0]), (2, [1, 2]), (3, [3, 4]), (4, [4, 3])] := rfl
    have hp : polygonsOf exBlocks = [([3, 2, 4], 1), ([0, 1, 2, 3], 2)] := rfl
    rw [h, hp]
    intro e he
    simp only [List.mem_cons, List.not_mem_nil, or_false] at he
    rcases he with rfl | rfl | rfl | rfl
    · exact ⟨([0, 1, 2, 3], 2), by simp, 0, by decide, by decide⟩
    · exact ⟨([0, 1, 2, 3], 2), by simp, 1, by decide, by decide⟩
    · exact ⟨([3, 2, 4], 1), by simp, 2, by decide, by decide⟩
    · exact ⟨([3, 2, 4], 1), by simp, 2, by decide, by decide⟩
  differ := by
    have hp : polygonsOf exBlocks = [([3, 2, 4], 1), ([0, 1, 2, 3], 2)] := rfl
    rw [hp]
    refine List.pairwise_cons.2 ⟨?_, by simp⟩
    intro q hq
    simp only [List.mem_cons, List.not_mem_nil, or_false] at hq
    subst hq
    refine ⟨[3, 4], fun h => ?_⟩
    obtain ⟨j, hj, he⟩ := h.1 ⟨2, by decide, by decide⟩
    simp only [List.length_cons, List.length_nil] at hj
    interval_cases j <;> simp [ordered] at he

/-! ### C154: two dimensions -/

/-- C154. Loading a file with one block of vertices, any number of blocks of polygons and of boundary edges, and the
keyword `End` gives its mesh. -/
theorem c154_load_partial (cap : Nat) (srt : List (List Nat × List Nat × Nat) → List (List Nat × List Nat × Nat))
    (hs : Fvca5.IsSort srt) (bs : List (Block K)) (hok : FileOk cap bs) (ts : List (Tok K)) (ht : FileText ts bs) :
    ∃ m, load cap srt (some ts) = .ok (true, m) ∧ MeshOf bs m := by
  obtain ⟨_, h2⟩ := populate_mesh srt hs cap bs hok
  refine ⟨_, ?_, h2⟩
  simp only [load, read_text cap hok.bound bs hok.block ts ht, Outcome.bind_ok]

/-- The order of `std::sort` exists. -/
theorem exSort : Fvca5.IsSort (Sort.sortBy fun x y => decide (x.1 < y.1)) := by
  intro l
  refine ⟨Sort.sortBy_perm _ _, ?_⟩
  have := Sort.sortBy_weak (fun x y : List Nat × List Nat × Nat => decide (x.1 < y.1))
    (by intro a b; simp only [decide_eq_true_eq, decide_eq_false_iff_not]; exact fun h => not_lt.2 h.le)
    (by intro a b c; simp only [decide_eq_false_iff_not, not_lt]; exact fun h h' => le_trans h h') l
  refine this.imp ?_
  intro a b h
  simpa using h

/-- A sort for the examples. -/
def srt : List (List Nat × List Nat × Nat) → List (List Nat × List Nat × Nat) := Sort.sortBy fun x y => decide (x.1 < y.1)

example : ∃ m, load 100 srt (some exToks) = .ok (true, m) ∧ MeshOf exBlocks m :=
  c154_load_partial 100 srt exSort exBlocks exBlocks_ok exToks exToks_text

/-- The mesh of the example: the last number of an edge counts, the first block of edges does not. -/
example : load 100 srt (some exToks) = .ok (true, ⟨[(0, 0), (1, 0), (1, 1), (0, 1), (0, 2)], [[0], [1], [2], [3], [4]],
    [[0, 1], [0, 3], [1, 2], [2, 3], [2, 4], [3, 4]], [([0, 1, 2, 3], [0, 1, 2, 3]), ([3, 4, 5], [3, 2, 4])],
    [.mk2 1 true, .default, .mk2 2 true, .default, .default, .mk2 4 true], []⟩) := by decide +kernel

/-- C154. Without a file, with another first keyword, another format or dimension, or at a keyword that begins no block,
loading returns `false` and leaves the mesh empty. -/
theorem c154_refuse (cap : Nat) (srt : List (List Nat × List Nat × Nat) → List (List Nat × List Nat × Nat)) :
    load (K := K) cap srt none = .ok (false, .empty) ∧
    (∀ (w : String) (ts : List (Tok K)), w ≠ "MeshVersionFormatted" → load cap srt (some (.word w :: ts)) = .ok (false, .empty)) ∧
    (∀ (n : Nat) (ts : List (Tok K)), n ≠ 2 → n < 2 ^ 64 →
      load cap srt (some (.word "MeshVersionFormatted" :: natTok n :: ts)) = .ok (false, .empty)) ∧
    (∀ (n : Nat) (ts : List (Tok K)), n ≠ 3 → n < 2 ^ 64 →
      load cap srt (some (.word "MeshVersionFormatted" :: natTok 2 :: .word "Dimension" :: natTok n :: ts)) =
        .ok (false, .empty)) ∧
    (∀ (bs : List (Block K)) (tss : List (List (Tok K))) (w : String) (ts : List (Tok K)), cap < 2 ^ 64 →
      (∀ b ∈ bs, BlockOk cap b) → List.Forall₂ BlockText tss bs → w ≠ "End" →
      (∀ t b, ¬ BlockText (.word w :: t : List (Tok K)) b) →
      load cap srt (some (head ++ tss.flatten ++ .word w :: ts)) = .ok (false, .empty)) := by
  have h2 := Fvca5.unat_nat (K := K) 2 (by decide)
  refine ⟨rfl, ?_, ?_, ?_, ?_⟩
  · intro w ts hw
    simp [load, Medit.read, header, hw]
  · intro n ts hn hn'
    simp [load, Medit.read, header, Fvca5.unat_nat n hn', hn]
  · intro n ts hn hn'
    simp [load, Medit.read, header, Fvca5.unat_nat n hn', hn, h2]
  · intro bs tss w ts hc hb ht hw hbt
    obtain ⟨fuel, first, hf, h⟩ := read_blocks cap hc bs hb tss ht (.word w) ts
    obtain ⟨f, rfl⟩ : ∃ f, fuel = f + 1 := ⟨fuel - 1, by omega⟩
    rw [parseLoop, if_neg hw] at h
    have h1 : w ≠ "Vertices" := by
      rintro rfl
      exact hbt [natTok 0] (.vertices []) ⟨[], .nil, rfl⟩
    have h3 : w ≠ "Edges" := by
      rintro rfl
      exact hbt [natTok 0] (.edges []) rfl
    have h4 : polyKw w = none := by
      unfold polyKw
      rw [if_neg, if_neg, if_neg, if_neg]
      · rintro rfl; exact hbt [natTok 0] (.polys 6 []) ⟨_, rfl, rfl⟩
      · rintro rfl; exact hbt [natTok 0] (.polys 5 []) ⟨_, rfl, rfl⟩
      · rintro rfl; exact hbt [natTok 0] (.polys 4 []) ⟨_, rfl, rfl⟩
      · rintro rfl; exact hbt [natTok 0] (.polys 3 []) ⟨_, rfl, rfl⟩
    rw [block, if_neg h1, h4] at h
    simp only [if_neg h3, Outcome.bind_ok] at h
    simp only [load, h, Outcome.bind_ok]

example : load 100 srt (some (head ++ exTexts.flatten ++ .word "Heptagons" :: [])) = .ok (false, .empty) := by
  refine (c154_refuse 100 srt).2.2.2.2 exBlocks exTexts "Heptagons" [] (by decide) exBlocks_block exTexts_text (by decide) ?_
  intro t b h
  cases b with
  | vertices _ => obtain ⟨_, _, h⟩ := h; simpa using (List.cons.inj h).1
  | edges _ => simpa using (List.cons.inj h).1
  | polys k _ =>
    obtain ⟨name, hn, h⟩ := h
    have h1 : name = "Heptagons" := by simpa [eq_comm] using (List.cons.inj h).1
    subst h1
    unfold polyName at hn
    split at hn <;> simp at hn

/-- C154 (violated): a file that ends without the keyword `End` uses a variable that was never written. -/
theorem c154_noend_violated (cap : Nat) (hc : cap < 2 ^ 64) (srt : List (List Nat × List Nat × Nat) → List (List Nat × List Nat × Nat))
    (bs : List (Block K)) (hb : ∀ b ∈ bs, BlockOk cap b) (hne : bs ≠ []) (tss : List (List (Tok K)))
    (h : List.Forall₂ BlockText tss bs) : (load cap srt (some (head ++ tss.flatten))).IsUB := by
  have := header_noend cap hc bs hb hne tss h
  simp only [load]
  cases hr : Medit.read cap (head ++ tss.flatten) with
  | ok _ => rw [hr] at this; exact this.elim
  | throws _ => rw [hr] at this; exact this.elim
  | ub _ => trivial

example : (load 100 srt (some (head ++ exTexts.flatten))).IsUB :=
  c154_noend_violated 100 (by decide) srt exBlocks exBlocks_block (by simp [exBlocks]) exTexts exTexts_text

/-- C154 (violated): if a boundary edge is no side of a polygon, the mesh has points but neither edges nor surfaces, and
loading still returns `true`. -/
theorem c154_orphan_violated (cap : Nat) (hc : cap < 2 ^ 64) (srt : List (List Nat × List Nat × Nat) → List (List Nat × List Nat × Nat))
    (bs : List (Block K)) (hb : ∀ b ∈ bs, BlockOk cap b) (ts : List (Tok K)) (ht : FileText ts bs)
    (h : ¬ ∀ e ∈ bndOf bs, ∃ p ∈ polygonsOf bs, Side p.1 (ordered (e.2.getD 0 0) (e.2.getD 1 0))) :
    ∃ m, load cap srt (some ts) = .ok (true, m) ∧ m.points = Spec.Medit.pointsOf bs ∧ m.edges = [] ∧ m.surfaces = [] := by
  obtain ⟨m, h1, h2⟩ := populate_orphan srt bs h
  refine ⟨m, ?_, h2⟩
  simp only [load, read_text cap hc bs hb ts ht, Outcome.bind_ok, h1]

example : ∃ bs : List (Block ℤ), (∀ b ∈ bs, BlockOk 100 b) ∧ polygonsOf bs ≠ [] ∧
    ¬ ∀ e ∈ bndOf bs, ∃ p ∈ polygonsOf bs, Side p.1 (ordered (e.2.getD 0 0) (e.2.getD 1 0)) := by
  refine ⟨[.polys 3 [([0, 1, 2], 0)], .edges [(0, [0, 3])]], ?_, by decide, ?_⟩
  · intro b hb
    simp only [List.mem_cons, List.not_mem_nil, or_false] at hb
    rcases hb with rfl | rfl <;> simp [BlockOk]
    decide
  · intro h
    obtain ⟨p, hp, j, hj, he⟩ := h (0, [0, 3]) (by simp [bndOf, Block.bnds, List.findSome?])
    simp only [polygonsOf, Block.polygons, List.flatMap_cons, List.flatMap_nil, List.append_nil, List.mem_singleton] at hp
    subst hp
    simp only [List.length_cons, List.length_nil] at hj
    interval_cases j <;> simp [ordered] at he

/-- C154 (violated): the reference numbers of polygons are read and dropped, so that the mesh has cells but no subdomain
information; asking for the subdomain of a cell fails an assertion. -/
theorem c154_reference_violated (cap : Nat) (srt : List (List Nat × List Nat × Nat) → List (List Nat × List Nat × Nat))
    (hs : Fvca5.IsSort srt) (bs : List (Block K)) (hok : FileOk cap bs) (ts : List (Tok K)) (ht : FileText ts bs)
    (hp : polygonsOf bs ≠ []) :
    ∃ m, load cap srt (some ts) = .ok (true, m) ∧ m.subdomains.length ≠ m.surfaces.length ∧
      ∀ c, (domainInfo ⟨[], m.nodes, m.edges, m.surfaces.map Prod.fst, [], m.boundary, m.subdomains⟩
        (K := K) (m.surfaces.map Prod.fst) c).IsUB := by
  obtain ⟨m, h1, h2⟩ := c154_load_partial cap srt hs bs hok ts ht
  have h3 : m.subdomains.length ≠ m.surfaces.length := by
    rw [h2.subdomains, h2.nsurf]
    exact fun h => hp (List.length_eq_zero_iff.1 h.symm)
  refine ⟨m, h1, h3, fun c => ?_⟩
  rw [domainInfo, if_pos (by simpa using h3)]
  trivial

example : polygonsOf exBlocks ≠ [] := by decide

/-- C154 (violated): consecutive equal corners fail an assertion, node zero becomes 2⁶⁴ - 1, corners need not be vertices
and a second block of vertices begins again with node zero. -/
theorem c154_corner_violated :
    (load 100 srt (some (head ++ blk "Triangles" [1, 1, 1, 2, 0] ++ [.word "End"]))).IsUB ∧
    load 100 srt (some (head ++ blk "Triangles" [1, 0, 1, 9, 0] ++ [.word "End"])) =
      .ok (true, ⟨[], [], [[0, 8], [0, 18446744073709551615], [8, 18446744073709551615]],
        [([0, 1, 2], [18446744073709551615, 0, 8])], [.default, .default, .default], []⟩) ∧
    load 100 srt (some (head ++ blk "Vertices" [1, 0, 0, 0, 0] ++ blk "Vertices" [1, 5, 5, 0, 0] ++ [.word "End"])) =
      .ok (true, ⟨[(0, 0), (5, 5)], [[0], [0]], [], [], [], []⟩) := by
  refine ⟨?_, ?_, ?_⟩ <;> decide +kernel

/-! ### C155: three dimensions -/

/-- C155. Loading a file whose references are in range gives its mesh, renumbered; a face is on the boundary exactly if it
is listed, with the last number given there. -/
theorem c155_load_partial (cap : Nat) (srt : List Renumber.Entry → List Renumber.Entry) (hs : Renumber.IsSort srt)
    (c : Contents K) (hc : ContentsOk cap c) (ts : List (Tok K)) (ht : Text ts c) :
    ∃ m π σ τ, load3 cap srt (some ts) = .ok (true, m) ∧ MeshOf3 c m π σ τ := by
  obtain ⟨L, π, σ, τ, h1, h2⟩ := populate3_text hs cap c hc
  refine ⟨L, π, σ, τ, ?_, h2⟩
  simp only [load3, read3_text cap c hc ts ht, Outcome.bind_ok, h1]

/-- A sort for the examples. -/
def srt3 : List Renumber.Entry → List Renumber.Entry := Sort.sortBy fun a b => decide (a.2 < b.2)

theorem srt3_isSort : Renumber.IsSort srt3 := by
  intro l
  refine ⟨Sort.sortBy_perm _ _, ?_⟩
  have := Sort.sortBy_weak (fun x y : Renumber.Entry => decide (x.2 < y.2))
    (by intro a b; simp only [decide_eq_true_eq, decide_eq_false_iff_not]; exact fun h => not_lt.2 h.le)
    (by intro a b c; simp only [decide_eq_false_iff_not, not_lt]; exact fun h h' => le_trans h h') l
  refine this.imp ?_
  intro a b h
  simpa using h

/-- A tetrahedron with edges and faces in scrambled order. -/
def exTet : Contents ℤ :=
  ⟨[(0, 0, 0), (1, 0, 0), (0, 1, 0), (0, 0, 1)], [[3, 1, 0, 2]], [[0, 1, 2, 3]],
   [[1, 2, 3], [0, 3, 4], [1, 5, 4], [0, 5, 2]], [[0, 1, 2], [0, 2, 3], [0, 1, 3], [1, 2, 3]], [(2, 8), (0, 7), (2, 9)],
   [(3, 2), (0, 1), (1, 2), (0, 2), (0, 3), (1, 3)]⟩

/-- Its text. -/
def exTetToks : List (Tok ℤ) :=
  head ++ blk "Vertices" [4, 0, 0, 0, 1, 0, 0, 0, 1, 0, 0, 0, 1] ++ blk "Volumes->Faces" [1, 4, 3, 1, 0, 2] ++
  blk "Volumes->Vertices" [1, 4, 0, 1, 2, 3] ++ blk "Faces->Edges" [4, 3, 1, 2, 3, 3, 0, 3, 4, 3, 1, 5, 4, 3, 0, 5, 2] ++
  blk "Faces->Vertices" [4, 3, 0, 1, 2, 3, 0, 2, 3, 3, 0, 1, 3, 3, 1, 2, 3] ++ [.word "Faces->Control"] ++
  blk "volumes" [3, 2, 8, 0, 7, 2, 9] ++ blk "Edges" [6, 3, 2, 0, 1, 1, 2, 0, 2, 0, 3, 1, 3]

theorem exTet_text : Text exTetToks exTet := by
  refine ⟨ns [0, 0, 0, 1, 0, 0, 0, 1, 0, 0, 0, 1], [], ?_, rfl⟩
  simp only [exTet, List.flatMap_cons, List.flatMap_nil, List.append_nil, List.cons_append, List.nil_append, ns, List.map_cons,
    List.map_nil]
  repeat' first | exact List.Forall₂.nil | refine List.Forall₂.cons ?_ ?_
  all_goals rfl

theorem exTet_ok : ContentsOk 100 exTet where
  bound := by decide
  points := by decide
  v2f := by simp [Fits, exTet]
  v2v := by simp [Fits, exTet]
  f2e := by simp [Fits, exTet]
  f2v := by simp [Fits, exTet]
  nbnd := by decide
  bnd := by decide
  nedges := by decide
  edge := by decide
  fe := by decide
  vf := by decide
  fv := rfl
  vv := rfl

example : ∃ m π σ τ, load3 100 srt3 (some exTetToks) = .ok (true, m) ∧ MeshOf3 exTet m π σ τ :=
  c155_load_partial 100 srt3 srt3_isSort exTet exTet_ok exTetToks exTet_text

/-- The mesh of the example. -/
def exTetMesh : Loaded3 ℤ :=
  ⟨exTet.points, [[0], [1], [2], [3]], [[0, 1], [0, 2], [0, 3], [1, 2], [1, 3], [2, 3]],
   [([0, 3, 1], [0, 1, 2]), ([0, 4, 2], [0, 1, 3]), ([5, 1, 2], [0, 2, 3]), ([5, 4, 3], [1, 2, 3])],
   [([3, 2, 0, 1], [0, 1, 2, 3])], [.mk2 7 true, .mk2 9 true, .default, .default]⟩

example : load3 100 srt3 (some exTetToks) = .ok (true, exTetMesh) := by decide +kernel

/-- C155. Without a file, or with another keyword than `Vertices` after the head, loading returns `false` and leaves the
mesh empty. -/
theorem c155_refuse (cap : Nat) (srt : List Renumber.Entry → List Renumber.Entry) :
    load3 (K := K) cap srt none = .ok (false, .empty) ∧
    ∀ (w : String) (ts : List (Tok K)), w ≠ "Vertices" → load3 cap srt (some (head ++ .word w :: ts)) = .ok (false, .empty) := by
  refine ⟨rfl, fun w ts hw => ?_⟩
  simp [load3, read3, header_head, sections, expect, hw]

example : load3 100 srt3 (some (head ++ .word "Edges" :: ns [1, 2])) = .ok (false, .empty) :=
  (c155_refuse 100 srt3).2 _ _ (by decide)

omit [Ring K] in
/-- C155 (violated): `populate_mesh` returns `false` whatever it has done; it is only because `load_mesh` drops the value
that loading reports success. -/
theorem c155_value_violated (srt : List Renumber.Entry → List Renumber.Entry) (d : Data3 K) (b : Bool) (m : Loaded3 K)
    (h : Medit.populate3 srt d = .ok (b, m)) : b = false := by
  unfold Medit.populate3 at h
  cases hp : Renumber.populate3 (.ub "conv_table[first] out of range") srt
      ⟨Renumber.enumerate d.edges, Renumber.enumerate d.f2e, d.f2v, Renumber.enumerate d.v2f, d.v2v⟩ with
  | throws _ => rw [hp] at h; cases h
  | ub _ => rw [hp] at h; cases h
  | ok p =>
    rw [hp, Outcome.bind_ok] at h
    cases hm : marks p.2.2 d.bnd (List.replicate p.1.faces.length BDesc.default) with
    | throws _ => rw [hm] at h; cases h
    | ub _ => rw [hm] at h; cases h
    | ok r =>
      rw [hm, Outcome.bind_ok] at h
      simp only [Outcome.ok.injEq, Prod.mk.injEq] at h
      exact h.1.symm

example : ∃ m, Medit.populate3 srt3 (data3 exTet) = .ok (false, m) := by
  obtain ⟨m, _, _, _, h, _⟩ := populate3_text srt3_isSort 100 exTet exTet_ok
  exact ⟨m, h⟩

/-- A file with one face and the given parts. -/
def oneFace (face bnd edges : List (Tok ℤ)) : List (Tok ℤ) :=
  head ++ blk "Vertices" [0] ++ blk "Volumes->Faces" [0] ++ blk "Volumes->Vertices" [0] ++ (.word "Faces->Edges" :: face) ++
  blk "Faces->Vertices" [1, 0] ++ [.word "Faces->Control"] ++ (.word "volumes" :: bnd) ++ (.word "Edges" :: edges)

/-- C155 (violated): references out of range and a file that ends early are undefined behaviour, an edge number or a
boundary face that does not exist is not refused; a last section whose number of lines is no number is taken for an empty
one. -/
theorem c155_range_violated :
    load3 100 srt3 (some (oneFace (ns [1, 1, 0]) (ns [1, 0, 3]) (ns [1, 0, 1]))) =
      .ok (true, ⟨[], [], [[0, 1]], [([0], [])], [], [.mk2 3 true]⟩) ∧
    (load3 100 srt3 (some (oneFace (ns [1, 1, 1]) (ns [0]) (ns [1, 0, 1])))).IsUB ∧
    (load3 100 srt3 (some (oneFace (ns [1, 1, 0]) (ns [1, 1, 3]) (ns [1, 0, 1])))).IsUB ∧
    (load3 100 srt3 (some (oneFace (ns [1, 1, 0]) (ns [1, 0, 3]) (ns [2, 0, 1])))).IsUB ∧
    load3 100 srt3 (some (oneFace (ns [1, 0]) (ns [0]) [.word "none"])) = .ok (true, ⟨[], [], [], [([], [])], [], [.default]⟩) := by
  refine ⟨?_, ?_, ?_, ?_, ?_⟩ <;> decide +kernel

end Verif.Props.Medit
