import Verif.Lemmas.Fvca5Mesh
/-! C152, C153: FVCA5 mesh files. -/
namespace Verif.Props.Fvca5
open Verif.Fvca5 Verif.Spec Verif.Spec.Fvca5 Verif.MeshFile Verif.MeshTopo
variable {K : Type} [Ring K]

/-- A triangle above a square, in domains 0 and 7. -/
def exBlocks : List (Block ℤ) :=
  [.vertices [(0, 0), (1, 0), (1, 1), (0, 1), (0, 2)], .polys 3 [([3, 2, 4], none)], .blank,
   .polys 4 [([0, 1, 2, 3], some 7)], .bnd false [(1, 0), (1, 2), (3, 0), (2, 4), (3, 4)],
   .edges [⟨0, 1, some 1, none⟩, ⟨1, 2, none, some 1⟩, ⟨3, 2, some 0, some 1⟩, ⟨3, 0, some 1, none⟩,
     ⟨2, 4, some 0, none⟩, ⟨4, 3, some 0, none⟩]]

/-- A line of numbers. -/
def ln (l : List Int) : Line ℤ := l.map .int

/-- A line of words. -/
def ws (l : List String) : Line ℤ := l.map .word

/-- Its text; edges carry boundary numbers that are not used. -/
def exLines : List (Line ℤ) :=
  [ws ["vertices"], ln [5], ln [0, 0], ln [1, 0], ln [1, 1], ln [0, 1], ln [0, 2],
   ws ["triangles"], ln [1], ln [4, 3, 5], [], ws ["quadrangles"], ln [1], ln [1, 2, 3, 4, 7],
   ws ["edges", "of", "the", "boundary"], ln [5], ln [2, 1], ln [2, 3], ln [4, 1], ln [3, 5], ln [4, 5],
   ws ["all", "edges"], ln [6], ln [1, 2, 2, 0, 9], ln [2, 3, 0, 2], ln [4, 3, 1, 2], ln [4, 1, 2, 0], ln [3, 5, 1, 0],
   ln [5, 4, 1, 0]]

theorem exLines_text : FileText exLines exBlocks := by
  refine ⟨[[ws ["vertices"], ln [5], ln [0, 0], ln [1, 0], ln [1, 1], ln [0, 1], ln [0, 2]],
    [ws ["triangles"], ln [1], ln [4, 3, 5]], [[]], [ws ["quadrangles"], ln [1], ln [1, 2, 3, 4, 7]],
    [ws ["edges", "of", "the", "boundary"], ln [5], ln [2, 1], ln [2, 3], ln [4, 1], ln [3, 5], ln [4, 5]],
    [ws ["all", "edges"], ln [6], ln [1, 2, 2, 0, 9], ln [2, 3, 0, 2], ln [4, 3, 1, 2], ln [4, 1, 2, 0], ln [3, 5, 1, 0],
      ln [5, 4, 1, 0]]], ?_, rfl⟩
  refine .cons ⟨[], _, ?_, rfl⟩ (.cons ⟨"triangles", [], rfl, rfl⟩ (.cons rfl (.cons ⟨"quadrangles", [], rfl, rfl⟩
    (.cons ⟨[], _, ?_, rfl⟩ (.cons ⟨[], _, ?_, rfl⟩ .nil)))))
  · repeat' first | exact List.Forall₂.nil | refine List.Forall₂.cons ?_ ?_
    all_goals exact ⟨.int _, .int _, [], rfl, rfl, rfl⟩
  · repeat' first | exact List.Forall₂.nil | refine List.Forall₂.cons ?_ ?_
    all_goals exact ⟨[], rfl⟩
  · exact .cons ⟨[.int 9], rfl⟩ (.cons ⟨[], rfl⟩ (.cons ⟨[], rfl⟩ (.cons ⟨[], rfl⟩ (.cons ⟨[], rfl⟩ (.cons ⟨[], rfl⟩ .nil)))))

theorem exBlocks_ok : FileOk 100 exBlocks := by
  refine ⟨by decide, fun pre b post h => ?_⟩
  have key : ∀ (n : Nat) (pre : List (Block ℤ)) (b : Block ℤ) (post : List (Block ℤ)), exBlocks = pre ++ b :: post →
      pre.length = n → pre = exBlocks.take n ∧ exBlocks[n]? = some b := by
    rintro n pre b post h rfl
    rw [h]
    simp
  obtain ⟨h1, h2⟩ := key pre.length pre b post h rfl
  have hl : pre.length < 6 := by
    have := congrArg List.length h
    simp only [exBlocks, List.length_cons, List.length_nil, List.length_append] at this
    omega
  generalize pre.length = n at h1 h2 hl
  subst h1
  interval_cases n <;> (simp only [exBlocks, List.getElem?_cons_zero, List.getElem?_cons_succ, Option.some.injEq] at h2; subst h2) <;>
    simp [BlockOk, exBlocks, Block.polygons]

/-! ### C152: reading -/

/-- C152. Reading the text of blocks of vertices, polygons, boundary edges and edges, where edges come after the polygons
they name, gives exactly the contents of the blocks. -/
theorem c152_read_partial (cap : Nat) (bs : List (Block K)) (hok : FileOk cap bs) (ls : List (Line K)) (ht : FileText ls bs) :
    ∃ d, read cap ls = .ok (some d) ∧ Holds d bs := by
  obtain ⟨d, f, h1, _, h3⟩ := read_text cap bs hok ls ht []
  rw [List.append_nil] at h3
  refine ⟨d, ?_, h1⟩
  rw [h3]
  cases f <;> rfl

omit [Ring K] in
/-- C152. The blocks determine the data. -/
theorem c152_determined (bs : List (Block K)) (d d' : Data K) (h : Holds d bs) (h' : Holds d' bs) : d = d' :=
  holds_unique bs d d' h h'

example : ∃ d, read 100 exLines = .ok (some d) ∧ Holds d exBlocks :=
  c152_read_partial 100 exBlocks exBlocks_ok exLines exLines_text

/-- C152. Whatever the file, if it is read then edges and boundary edges join two different nodes, the smaller one first,
polygons have three to eight corners, neighbours exist, and the edges of a polygon are the edges naming it, each once
and in increasing order. -/
theorem c152_data (cap : Nat) (ls : List (Line K)) (d : Data K) (h : read cap ls = .ok (some d)) :
    (∀ e ∈ d.edges, ∃ a b, e.1 = [a, b] ∧ a < b) ∧ (∀ e ∈ d.bnd, ∃ a b, e = [a, b] ∧ a < b) ∧
    (∀ p ∈ d.polys, 3 ≤ p.nodes.length ∧ p.nodes.length ≤ 8) ∧
    (∀ e ∈ d.edges, e.2.1 ≤ d.polys.length ∧ e.2.2 ≤ d.polys.length) ∧
    (∀ p ∈ d.polys, p.attached.Pairwise (· < ·)) ∧
    ∀ i p, d.polys[i]? = some p → ∀ x, x ∈ p.attached ↔ ∃ e ∈ d.edges, e.1 = x ∧ (e.2.1 = i + 1 ∨ e.2.2 = i + 1) :=
  have hi := read_inv cap ls d h
  ⟨hi.edges, hi.bnd, hi.corners, hi.side, hi.sorted, hi.attached⟩

example : ∃ d, read 100 exLines = .ok (some d) ∧ d.edges.length = 6 := by
  obtain ⟨d, h, hd⟩ := c152_read_partial 100 exBlocks exBlocks_ok exLines exLines_text
  exact ⟨d, h, by rw [hd.edges]; rfl⟩

/-- C152. A line that begins no block is refused. -/
theorem c152_refuse_header (cap : Nat) (bs : List (Block K)) (hok : FileOk cap bs) (ls : List (Line K)) (ht : FileText ls bs)
    (l : Line K) (hl : ∀ ls b, ¬ BlockText (l :: ls) b) (rest : List (Line K)) : read cap (ls ++ l :: rest) = .ok none := by
  obtain ⟨d, f, _, h2, h3⟩ := read_text cap bs hok ls ht (l :: rest)
  rw [h3]
  refine parseLoop_refuse cap f d l rest h2 ?_
  simp only [parseBlock, next, kind_unknown l hl]

example : ∀ ls b, ¬ BlockText ((ws ["heptagons"]) :: ls : List (Line ℤ)) b := by
  intro ls b h
  cases b with
  | blank => exact absurd (List.cons.inj h).1 (by simp [ws])
  | vertices _ => obtain ⟨_, _, _, h⟩ := h; simpa [ws] using (List.cons.inj h).1
  | polys k _ =>
    obtain ⟨name, _, hn, h⟩ := h
    have h1 : name = "heptagons" := by simpa [ws, eq_comm] using (List.cons.inj h).1
    subst h1
    unfold polyName at hn
    split at hn <;> simp at hn
  | bnd t _ => obtain ⟨_, _, _, h⟩ := h; cases t <;> simpa [ws] using (List.cons.inj h).1
  | edges _ => obtain ⟨_, _, _, h⟩ := h; simpa [ws] using (List.cons.inj h).1

/-- C152. Boundary edges and edges with a node zero or twice the same node are refused. -/
theorem c152_refuse_edge (cap : Nat) (bs : List (Block K)) (hok : FileOk cap bs) (ls : List (Line K)) (ht : FileText ls bs)
    (a b : Nat) (ha : a < 2 ^ 64) (hb : b < 2 ^ 64) (hab : a = 0 ∨ b = 0 ∨ a = b) (n : Nat) (hn : n < 2 ^ 64)
    (c r : Line K) (rest : List (Line K)) :
    (∀ (t : Bool) (vs : List (Line K)) (es : List (Nat × Nat)), List.Forall₂ BndLine vs es → BlockOk (K := K) cap 0 (.bnd t es) →
      es.length < n → n ≤ cap →
      read cap (ls ++ ((if t then [.word "edges", .word "of", .word "transmission"]
        else [.word "edges", .word "of", .word "the", .word "boundary"]) :: (natTok n :: c) :: (vs ++
        (natTok a :: natTok b :: r) :: rest))) = .ok none) ∧
    (∀ (vs : List (Line K)) (es : List Edge), List.Forall₂ EdgeLine vs es →
      BlockOk (K := K) cap (bs.flatMap Block.polygons).length (.edges es) → es.length < n →
      read cap (ls ++ ([.word "all", .word "edges"] :: (natTok n :: c) :: (vs ++
        (natTok a :: natTok b :: r) :: rest))) = .ok none) := by
  have he : edgeOf a b = none := by
    unfold edgeOf
    split
    · rfl
    · rw [if_pos (by omega)]
  constructor
  · intro t vs es hv hes hlt hcap
    obtain ⟨d, f, _, h2, h3⟩ := read_text cap bs hok ls ht ((if t then [.word "edges", .word "of", .word "transmission"]
        else [.word "edges", .word "of", .word "the", .word "boundary"]) :: (natTok n :: c) :: (vs ++
        (natTok a :: natTok b :: r) :: rest))
    rw [h3]
    refine parseLoop_refuse cap f d _ _ h2 ?_
    have hk : kind (if t then [.word "edges", .word "of", .word "transmission"]
        else [.word "edges", .word "of", .word "the", .word "boundary"] : Line K) = .bnd := by
      cases t <;> simp [kind, asWords]
    have hbad := boundary_bad vs es hv hes.2 n hlt ((natTok a :: natTok b :: r) :: rest)
      (by simp only [next, unat_nat _ ha, unat_nat _ hb, Option.bind_some, he])
    simp only [parseBlock, next, hk, unat_nat _ hn, if_neg (not_lt.2 hcap), hbad, Option.map_none]
  · intro vs es hv hes hlt
    obtain ⟨d, f, h1, h2, h3⟩ := read_text cap bs hok ls ht ([.word "all", .word "edges"] :: (natTok n :: c) :: (vs ++
        (natTok a :: natTok b :: r) :: rest))
    rw [h3]
    refine parseLoop_refuse cap f d _ _ h2 ?_
    have hk : kind ([.word "all", .word "edges"] : Line K) = .edges := by simp [kind, asWords]
    rw [← holds_length h1] at hes
    have hbad := allEdges_bad vs es hv d.polys hes.2 n hlt ((natTok a :: natTok b :: r) :: rest) (by
      simp only [next, unat_nat _ ha, unat_nat _ hb, Option.bind_some, he, Option.bind_none]
      cases unat r with
      | none => rfl
      | some x => rw [Option.bind_some]; cases unat x.2 <;> rfl)
    simp only [parseBlock, next, hk, unat_nat _ hn, hbad, Outcome.bind_ok, Option.map_none]

example : read 100 (exLines ++ (ws ["all", "edges"] :: ln [2] :: ([ln [1, 3, 1, 2]] ++ ln [4, 4, 1, 2] :: []))) = .ok none :=
  (c152_refuse_edge 100 exBlocks exBlocks_ok exLines exLines_text 4 4 (by decide) (by decide) (by decide) 2 (by decide) []
    (ln [1, 2]) []).2 [ln [1, 3, 1, 2]] [⟨0, 2, some 0, some 1⟩] (.cons ⟨[], rfl⟩ .nil)
    (by simp [BlockOk, exBlocks, Block.polygons]) (by decide)

/-- C152. A file that ends before the announced number of vertices, boundary edges or edges is refused. -/
theorem c152_refuse_short (cap : Nat) (bs : List (Block K)) (hok : FileOk cap bs) (ls : List (Line K)) (ht : FileText ls bs)
    (n : Nat) (hn : n < 2 ^ 64) (c : Line K) :
    (∀ (vs : List (Line K)) (pts : List (K × K)), List.Forall₂ VertexLine vs pts → pts.length < n →
      read cap (ls ++ ([.word "vertices"] :: (natTok n :: c) :: vs)) = .ok none) ∧
    (∀ (vs : List (Line K)) (es : List (Nat × Nat)), List.Forall₂ BndLine vs es → BlockOk (K := K) cap 0 (.bnd false es) →
      es.length < n → n ≤ cap →
      read cap (ls ++ ([.word "edges", .word "of", .word "the", .word "boundary"] :: (natTok n :: c) :: vs)) = .ok none) ∧
    (∀ (vs : List (Line K)) (es : List Edge), List.Forall₂ EdgeLine vs es →
      BlockOk (K := K) cap (bs.flatMap Block.polygons).length (.edges es) → es.length < n →
      read cap (ls ++ ([.word "all", .word "edges"] :: (natTok n :: c) :: vs)) = .ok none) := by
  refine ⟨?_, ?_, ?_⟩
  · intro vs pts hv hlt
    obtain ⟨d, f, _, h2, h3⟩ := read_text cap bs hok ls ht ([.word "vertices"] :: (natTok n :: c) :: vs)
    rw [h3]
    refine parseLoop_refuse cap f d _ _ h2 ?_
    have hk : kind ([.word "vertices"] : Line K) = .vertices := by simp [kind, asWords]
    have hbad := vertices_bad vs pts hv n hlt [] rfl
    rw [List.append_nil] at hbad
    simp only [parseBlock, next, hk, unat_nat _ hn, hbad, Option.map_none]
  · intro vs es hv hes hlt hcap
    obtain ⟨d, f, _, h2, h3⟩ := read_text cap bs hok ls ht
      ([.word "edges", .word "of", .word "the", .word "boundary"] :: (natTok n :: c) :: vs)
    rw [h3]
    refine parseLoop_refuse cap f d _ _ h2 ?_
    have hk : kind ([.word "edges", .word "of", .word "the", .word "boundary"] : Line K) = .bnd := by simp [kind, asWords]
    have hbad := boundary_bad vs es hv hes.2 n hlt [] rfl
    rw [List.append_nil] at hbad
    simp only [parseBlock, next, hk, unat_nat _ hn, if_neg (not_lt.2 hcap), hbad, Option.map_none]
  · intro vs es hv hes hlt
    obtain ⟨d, f, h1, h2, h3⟩ := read_text cap bs hok ls ht ([.word "all", .word "edges"] :: (natTok n :: c) :: vs)
    rw [h3]
    refine parseLoop_refuse cap f d _ _ h2 ?_
    have hk : kind ([.word "all", .word "edges"] : Line K) = .edges := by simp [kind, asWords]
    rw [← holds_length h1] at hes
    have hbad := allEdges_bad vs es hv d.polys hes.2 n hlt [] rfl
    rw [List.append_nil] at hbad
    simp only [parseBlock, next, hk, unat_nat _ hn, hbad, Outcome.bind_ok, Option.map_none]

example : read 100 (exLines ++ [ws ["vertices"], ln [2], ln [0, 5]]) = .ok none :=
  (c152_refuse_short 100 exBlocks exBlocks_ok exLines exLines_text 2 (by decide) []).1 [ln [0, 5]] [(0, 5)]
    (.cons ⟨.int _, .int _, [], rfl, rfl, rfl⟩ .nil) (by decide)

/-- C152 (violated): corners of polygons are not tested. The corner zero becomes 2⁶⁴ - 1, and corners that are no vertices
are kept. -/
theorem c152_corner_violated : ∃ (ls : List (Line ℤ)) (d : Data ℤ), read 100 ls = .ok (some d) ∧ d.points.length = 1 ∧
    d.polys.map (·.nodes) = [[18446744073709551615, 0, 5]] :=
  ⟨[ws ["vertices"], ln [1], ln [0, 0], ws ["triangles"], ln [1], ln [0, 1, 6]],
   ⟨[(0, 0)], [⟨[18446744073709551615, 0, 5], [], 0⟩], [], []⟩, by rfl, rfl, rfl⟩

/-- C152 (violated): a domain number that does not fit is neither refused nor kept: whatever it is, the polygon gets
the domain 2⁶⁴ - 1, so that different domains become one. -/
theorem c152_domain_violated (cap : Nat) (bs : List (Block K)) (hok : FileOk cap bs) (ls : List (Line K)) (ht : FileText ls bs)
    (name : String) (c : List Nat) (hk : polyName c.length = some name) (hc : ∀ i ∈ c, i + 1 < 2 ^ 64) (n : Nat)
    (hn : 2 ^ 64 ≤ n) :
    ∃ d, read cap (ls ++ [[.word name], [natTok 1], polyLine (c, some n)]) = .ok (some d) ∧
      d.polys.getLast? = some ⟨c, [], 2 ^ 64 - 1⟩ := by
  obtain ⟨d, f, _, h2, h3⟩ := read_text cap bs hok ls ht [[.word name], [natTok 1], polyLine (c, some n)]
  obtain ⟨f, rfl⟩ : ∃ k, f = k + 1 := ⟨f - 1, by simp only [List.length_cons] at h2; omega⟩
  have hd : domain ([natTok n] : Line K) = 2 ^ 64 - 1 := by
    have : ¬ n < 18446744073709551616 := by omega
    simp [domain, digit, natTok, unat, this]
  have hb : parseBlock cap d [[.word name], [natTok 1], polyLine (c, some n)] =
      .ok (some ({ d with polys := d.polys ++ [⟨c, [], 2 ^ 64 - 1⟩] }, [])) := by
    simp only [parseBlock, next, kind_poly _ _ hk, unat_nat 1 (by decide), polygons, polyLine, Option.toList_some,
      List.map_cons, List.map_nil, corners_text c hc, Outcome.bind_ok, Option.map_some, hd]
  refine ⟨{ d with polys := d.polys ++ [⟨c, [], 2 ^ 64 - 1⟩] }, ?_, by simp⟩
  rw [h3, parseLoop, hb, Outcome.bind_ok]
  cases f <;> rfl

example : ∃ d, read 100 (exLines ++ [[.word "triangles"], [natTok 1], polyLine ([0, 1, 4], some (2 ^ 64))]) = .ok (some d) ∧
    d.polys.getLast? = some ⟨[0, 1, 4], [], 2 ^ 64 - 1⟩ :=
  c152_domain_violated 100 exBlocks exBlocks_ok exLines exLines_text "triangles" [0, 1, 4] rfl (by decide) _ le_rfl

/-- C152 (violated): an edge naming a polygon that has not been read ends in an exception rather than a refusal, even if
the polygon comes later in the file. -/
theorem c152_order_violated : (read 100 [ws ["all", "edges"], ln [1], ln [1, 2, 1, 0], ws ["triangles"], ln [1],
    ln [1, 2, 3]]).Throws := by
  have : read 100 [ws ["all", "edges"], ln [1], ln [1, 2, 1, 0], ws ["triangles"], ln [1], ln [1, 2, 3]] =
    .throws "out_of_range" := by rfl
  rw [this]
  trivial

/-- C152 (violated): a polygon with too few corners on its line, or a file that ends within the polygons, uses a variable
that was never written. -/
theorem c152_short_violated : (read 100 [ws ["triangles"], ln [1], ln [1, 2]]).IsUB ∧
    (read 100 [ws ["triangles"], ln [2], ln [1, 2, 3]]).IsUB := by
  have h1 : read 100 [ws ["triangles"], ln [1], ln [1, 2]] = .ub "val is not initialised" := by rfl
  have h2 : read 100 [ws ["triangles"], ln [2], ln [1, 2, 3]] = .ub "val is not initialised" := by rfl
  rw [h1, h2]
  exact ⟨trivial, trivial⟩

/-! ### C153: the mesh -/

/-- The order of `std::sort` exists. -/
theorem exSort : Fvca5.IsSort (Sort.sortBy fun x y => decide (x.1 < y.1)) := by
  intro l
  refine ⟨Sort.sortBy_perm _ _, ?_⟩
  have := Sort.sortBy_weak (fun x y : List Nat × List Nat × Nat => decide (x.1 < y.1))
    (by intro a b; simp only [decide_eq_true_eq, decide_eq_false_iff_not]; exact fun h => not_lt.2 h.le)
    (by intro a b c; simp only [decide_eq_false_iff_not, not_lt]; exact fun h h' => le_trans h h') l
  refine this.imp ?_
  intro a b h
  simpa using h

/-- C153. Loading a file in which every edge is given once, boundary edges are among the edges, polygons differ in their
edges and an edge has at most two polygons gives the mesh of these data. -/
theorem c153_load_partial (cap : Nat) (srt : List (List Nat × List Nat × Nat) → List (List Nat × List Nat × Nat))
    (hs : Fvca5.IsSort srt) (num : List Nat → List Nat → Option Nat) (bs : List (Block K)) (hok : FileOk cap bs)
    (ls : List (Line K)) (ht : FileText ls bs) (hp : ∀ d, Holds d bs → Proper d) :
    ∃ d m, Holds d bs ∧ load cap srt num (some ls) = .ok (true, m) ∧ MeshOf d num m := by
  obtain ⟨d, hr, hd⟩ := c152_read_partial cap bs hok ls ht
  obtain ⟨m, hm, hmo⟩ := populate_proper srt hs num d (hp d hd)
  refine ⟨d, m, hd, ?_, hmo⟩
  simp only [load, hr, hm, Outcome.bind_ok]

/-- The data of the example. -/
def exData : Data ℤ :=
  ⟨[(0, 0), (1, 0), (1, 1), (0, 1), (0, 2)],
   [⟨[3, 2, 4], [[2, 3], [2, 4], [3, 4]], 0⟩, ⟨[0, 1, 2, 3], [[0, 1], [0, 3], [1, 2], [2, 3]], 7⟩],
   [[0, 1], [1, 2], [0, 3], [2, 4], [3, 4]],
   [([0, 1], 2, 0), ([1, 2], 0, 2), ([2, 3], 1, 2), ([0, 3], 2, 0), ([2, 4], 1, 0), ([3, 4], 1, 0)]⟩

example : read 100 exLines = .ok (some exData) := by rfl

example : ∃ d m, Holds d exBlocks ∧ load 100 (Sort.sortBy fun x y => decide (x.1 < y.1)) (fun _ _ => some 1) (some exLines) =
    .ok (true, m) ∧ MeshOf d (fun _ _ => some 1) m := by
  refine c153_load_partial 100 _ exSort _ exBlocks exBlocks_ok exLines exLines_text fun d hd => ?_
  obtain ⟨d', h1, h2⟩ := c152_read_partial 100 exBlocks exBlocks_ok exLines exLines_text
  have h3 : d' = exData := by
    have : read 100 exLines = .ok (some exData) := by rfl
    simpa using h1.symm.trans this
  rw [c152_determined exBlocks d d' hd h2, h3]
  exact { edges := by decide, bnd := by decide, sorted := by decide, attached := by decide, differ := by decide,
          two := fun e => List.length_filter_le _ _, corner := by decide }

/-- A slanted edge: all sides keep the number zero. -/
example : load 100 (Sort.sortBy fun x y => decide (x.1 < y.1)) (fun _ e => if e = [2, 4] then none else some 1) (some exLines) =
    .ok (true, { points := exData.points, nodes := [[0], [1], [2], [3], [4]],
                 edges := [[0, 1], [0, 3], [1, 2], [2, 3], [2, 4], [3, 4]],
                 surfaces := [([0, 1, 2, 3], [0, 1, 2, 3]), ([3, 4, 5], [3, 2, 4])],
                 boundary := [.mk2 0 true, .mk2 0 true, .mk2 0 true, .default, .mk2 0 true, .mk2 0 true],
                 subdomains := [7, 0] }) := by
  decide +kernel

/-- C153. If every edge with one polygon is on a side, the numbers of the sides are stored. -/
example : load 100 (Sort.sortBy fun x y => decide (x.1 < y.1)) (fun _ e => some e.sum) (some exLines) =
    .ok (true, { points := exData.points, nodes := [[0], [1], [2], [3], [4]],
                 edges := [[0, 1], [0, 3], [1, 2], [2, 3], [2, 4], [3, 4]],
                 surfaces := [([0, 1, 2, 3], [0, 1, 2, 3]), ([3, 4, 5], [3, 2, 4])],
                 boundary := [Hypercube.setMark 1 (.mk2 0 true), Hypercube.setMark 3 (.mk2 0 true),
                   Hypercube.setMark 3 (.mk2 0 true), .default, Hypercube.setMark 6 (.mk2 0 true),
                   Hypercube.setMark 7 (.mk2 0 true)],
                 subdomains := [7, 0] }) := by
  decide +kernel

/-- C153. A file that cannot be opened or read leaves the mesh empty and is reported. -/
theorem c153_refused (cap : Nat) (srt : List (List Nat × List Nat × Nat) → List (List Nat × List Nat × Nat))
    (num : List Nat → List Nat → Option Nat) : load cap srt num (none : Option (List (Line K))) = .ok (false, .empty) ∧
    ∀ ls : List (Line K), read cap ls = .ok none → load cap srt num (some ls) = .ok (false, .empty) :=
  ⟨rfl, fun ls h => by simp only [load, h, Outcome.bind_ok]⟩

example : read 100 [ws ["heptagons"]] = .ok none := by rfl

/-- C153 (violated): whenever a boundary edge is not among the edges, loading reports success for a mesh without edges and
cells. -/
theorem c153_missing_violated (cap : Nat) (srt : List (List Nat × List Nat × Nat) → List (List Nat × List Nat × Nat))
    (num : List Nat → List Nat → Option Nat) (ls : List (Line K)) (d : Data K) (hr : read cap ls = .ok (some d))
    (hn : (d.edges.map (·.1)).Nodup) (e : List Nat) (he : e ∈ d.bnd) (he' : e ∉ d.edges.map (·.1)) :
    ∃ m, load cap srt num (some ls) = .ok (true, m) ∧ m.points = d.points ∧ m.edges = [] ∧ m.surfaces = [] := by
  have hf := (flag_fails (sortedEdges d) (sortedEdges_lt d hn) (d.bnd.map fun e => (e, 0))
    (List.replicate (sortedEdges d).length BDesc.default) (by simp)
    (fun h => he' ((mem_sortedEdges d e).1 (h (e, 0) (List.mem_map_of_mem he))))).1
  unfold sortedEdges at hf
  refine ⟨⟨d.points, mkNodes d.points.length, [], [],
    (flag (sortedEdges d) (d.bnd.map fun e => (e, 0)) (List.replicate (sortedEdges d).length BDesc.default)).2, []⟩,
    ?_, rfl, rfl, rfl⟩
  simp only [load, hr, Outcome.bind_ok, populate, hf, if_true]
  rfl

/-- A triangle whose boundary edge is not one of its edges. -/
def exMissing : List (Line ℤ) :=
  [ws ["vertices"], ln [3], ln [0, 0], ln [1, 0], ln [0, 1], ws ["triangles"], ln [1], ln [1, 2, 3],
    ws ["edges", "of", "the", "boundary"], ln [1], ln [1, 4], ws ["all", "edges"], ln [3], ln [1, 2, 1, 0], ln [2, 3, 1, 0],
    ln [3, 1, 1, 0]]

example : ∃ m, load 100 (Sort.sortBy fun x y => decide (x.1 < y.1)) (fun _ _ => some 1) (some exMissing) = .ok (true, m) ∧
    m.points = [(0, 0), (1, 0), (0, 1)] ∧ m.edges = [] ∧ m.surfaces = [] :=
  c153_missing_violated 100 _ _ exMissing
    ⟨[(0, 0), (1, 0), (0, 1)], [⟨[0, 1, 2], [[0, 1], [0, 2], [1, 2]], 0⟩], [[0, 3]],
      [([0, 1], 1, 0), ([1, 2], 1, 0), ([0, 2], 1, 0)]⟩ (by rfl) (by decide) [0, 3] (by decide) (by decide)

/-- C153 (violated): an edge given twice is stored twice. The second copy belongs to no cell and, although the file lists
the edge as a boundary edge, is not on the boundary. -/
theorem c153_twice_violated : ∃ (ls : List (Line ℤ)) (d : Data ℤ) (m : Loaded ℤ),
    read 100 ls = .ok (some d) ∧
    load 100 (Sort.sortBy fun x y => decide (x.1 < y.1)) (fun _ _ => some 1) (some ls) = .ok (true, m) ∧
    [0, 1] ∈ d.bnd ∧ m.edges[0]? = some [0, 1] ∧ m.edges[1]? = some [0, 1] ∧ (∀ s ∈ m.surfaces, 1 ∉ s.1) ∧
    m.boundary[1]? = some .default :=
  ⟨[ws ["vertices"], ln [3], ln [0, 0], ln [1, 0], ln [0, 1], ws ["triangles"], ln [1], ln [1, 2, 3],
    ws ["edges", "of", "the", "boundary"], ln [1], ln [1, 2], ws ["all", "edges"], ln [4], ln [1, 2, 1, 0], ln [2, 1, 1, 0],
    ln [2, 3, 1, 0], ln [3, 1, 1, 0]],
   ⟨[(0, 0), (1, 0), (0, 1)], [⟨[0, 1, 2], [[0, 1], [0, 2], [1, 2]], 0⟩], [[0, 1]],
     [([0, 1], 1, 0), ([0, 1], 1, 0), ([1, 2], 1, 0), ([0, 2], 1, 0)]⟩,
   ⟨[(0, 0), (1, 0), (0, 1)], [[0], [1], [2]], [[0, 1], [0, 1], [0, 2], [1, 2]], [([0, 2, 3], [0, 1, 2])],
     [Hypercube.setMark 1 (.mk2 0 true), .default, Hypercube.setMark 1 .default, Hypercube.setMark 1 .default], [0]⟩,
   by rfl, by decide +kernel, by decide, rfl, rfl, by decide, rfl⟩

/-- C153 (violated): an edge with three polygons, which the file may name on several lines, fails an assertion. -/
theorem c153_three_violated : ∃ ls : List (Line ℤ),
    (load 100 (Sort.sortBy fun x y => decide (x.1 < y.1)) (fun _ _ => some 1) (some ls)).IsUB := by
  refine ⟨[ws ["triangles"], ln [3], ln [1, 2, 3], ln [1, 2, 4], ln [1, 2, 5], ws ["all", "edges"], ln [4],
    ln [1, 2, 1, 2], ln [1, 2, 3, 0], ln [2, 3, 1, 2], ln [3, 1, 1, 3]], ?_⟩
  show Outcome.IsUB _
  decide +kernel

end Verif.Props.Fvca5
