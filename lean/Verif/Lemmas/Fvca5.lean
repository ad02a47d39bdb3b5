import Verif.Lemmas.MeshFile
import Verif.Spec.Fvca5
/-! Reading FVCA5 files. -/
namespace Verif.Fvca5
open Verif.MeshFile Verif.Spec Verif.Spec.Fvca5
variable {K : Type} [Ring K]

omit [Ring K] in
theorem unat_nat (n : Nat) (h : n < 2 ^ 64) (ts : Line K) : unat (natTok n :: ts) = some (n, ts) := by
  have h' : (n : Int).natAbs < 18446744073709551616 := by simpa using h
  rw [natTok, unat, if_pos h', ulong_nat n h]

theorem vertices_text (vs : List (Line K)) (pts : List (K × K)) (h : List.Forall₂ VertexLine vs pts) (rest : List (Line K)) :
    vertices pts.length (vs ++ rest) = some (pts, rest) := by
  induction h with
  | nil => rfl
  | cons hl _ ih =>
    obtain ⟨x, y, r, hx, hy, rfl⟩ := hl
    have hc : ∀ (t : Tok K) (v : K) (ts : Line K), CoordTok t v → ucoord (t :: ts) = some (v, ts) := by
      intro t v ts h
      cases t <;> simp_all [CoordTok, ucoord]
    simp only [List.length_cons, vertices, List.cons_append, next, hc x _ _ hx, hc y _ _ hy, Option.bind_some, ih]

omit [Ring K] in
theorem corners_text (l : List Nat) (h : ∀ c ∈ l, c + 1 < 2 ^ 64) (ts : Line K) :
    corners l.length (l.map (fun c => natTok (c + 1)) ++ ts) = .ok (some (l, ts)) := by
  induction l with
  | nil => rfl
  | cons c l ih =>
    have hc := h c (by simp)
    simp only [List.length_cons, corners, List.map_cons, List.cons_append, unat_nat _ hc,
      ih fun c hc => h c (List.mem_cons_of_mem _ hc), Outcome.bind_ok, Option.map_some, pred64_succ c (by omega)]

omit [Ring K] in
theorem domain_text (o : Option Nat) (h : ∀ n, o = some n → n < 2 ^ 64) :
    domain (o.toList.map natTok : Line K) = o.getD 0 := by
  cases o with
  | none => rfl
  | some n =>
    have hn := unat_nat (K := K) n (h n rfl) []
    simp only [Option.toList_some, List.map_cons, List.map_nil, domain, hn, Option.getD_some]
    rw [if_pos]
    simp [digit, natTok]

omit [Ring K] in
theorem polygons_text (k : Nat) (ps : List (List Nat × Option Nat))
    (h : ∀ p ∈ ps, p.1.length = k ∧ (∀ c ∈ p.1, c + 1 < 2 ^ 64) ∧ ∀ n, p.2 = some n → n < 2 ^ 64)
    (rest : List (Line K)) :
    polygons k ps.length (ps.map polyLine ++ rest) = .ok (some (ps.map fun p => ⟨p.1, [], p.2.getD 0⟩, rest)) := by
  induction ps with
  | nil => rfl
  | cons p ps ih =>
    obtain ⟨h1, h2, h3⟩ := h p (by simp)
    subst h1
    simp only [List.length_cons, polygons, List.map_cons, List.cons_append, next]
    rw [polyLine, corners_text p.1 h2]
    simp only [Outcome.bind_ok, ih fun q hq => h q (List.mem_cons_of_mem _ hq), Option.map_some, domain_text p.2 h3]

theorem edgeOf_ordered (a b : Nat) (h : a ≠ b) : edgeOf (a + 1) (b + 1) = some (ordered a b) := by
  unfold edgeOf ordered
  rw [if_neg (by omega), if_neg (by omega)]
  rcases Nat.lt_or_gt_of_ne h with h | h
  · rw [if_neg (by omega), Nat.min_eq_left h.le, Nat.max_eq_right h.le]; rfl
  · rw [if_pos (by omega), Nat.min_eq_right h.le, Nat.max_eq_left h.le]; rfl

omit [Ring K] in
theorem boundary_text (vs : List (Line K)) (es : List (Nat × Nat)) (ht : List.Forall₂ BndLine vs es)
    (h : ∀ e ∈ es, e.1 ≠ e.2 ∧ e.1 + 1 < 2 ^ 64 ∧ e.2 + 1 < 2 ^ 64) (rest : List (Line K)) :
    boundaryEdges es.length (vs ++ rest) = some (es.map fun e => ordered e.1 e.2, rest) := by
  induction ht with
  | nil => rfl
  | @cons l e vs es hl _ ih =>
    obtain ⟨r, rfl⟩ := hl
    obtain ⟨h1, h2, h3⟩ := h e (by simp)
    simp only [List.length_cons, boundaryEdges, List.cons_append, next, unat_nat _ h2, unat_nat _ h3, Option.bind_some,
      edgeOf_ordered _ _ h1, ih fun q hq => h q (List.mem_cons_of_mem _ hq), List.map_cons]

/-! ### The edges of polygons -/

omit [Ring K] in
theorem mem_insertEdge (e : List Nat) (l : List (List Nat)) (x : List Nat) : x ∈ insertEdge e l ↔ x = e ∨ x ∈ l := by
  induction l with
  | nil => simp [insertEdge]
  | cons y ys ih =>
    unfold insertEdge
    split
    · simp
    · split
      · rw [List.mem_cons, ih, List.mem_cons]
        tauto
      · have : y = e := le_antisymm (not_lt.1 ‹_›) (not_lt.1 ‹_›)
        subst this
        simp

omit [Ring K] in
theorem insertEdge_sorted (e : List Nat) (l : List (List Nat)) (h : l.Pairwise (· < ·)) :
    (insertEdge e l).Pairwise (· < ·) := by
  induction l with
  | nil => simp [insertEdge]
  | cons y ys ih =>
    unfold insertEdge
    have hy := List.pairwise_cons.1 h
    split
    · rename_i hlt
      refine List.pairwise_cons.2 ⟨fun z hz => ?_, h⟩
      rcases List.mem_cons.1 hz with rfl | hz
      · exact hlt
      · exact lt_trans hlt (hy.1 z hz)
    · split
      · rename_i hlt
        refine List.pairwise_cons.2 ⟨fun z hz => ?_, ih hy.2⟩
        rcases (mem_insertEdge _ _ _).1 hz with rfl | hz
        · exact hlt
        · exact hy.1 z hz
      · exact h

/-- `ps'` are the polygons `ps` with the pairs of polygon number and edge in `R` attached. -/
structure Attached (ps : List Poly) (R : Nat → List Nat → Prop) (ps' : List Poly) : Prop where
  nodes : ps'.map (·.nodes) = ps.map (·.nodes)
  dom : ps'.map (·.dom) = ps.map (·.dom)
  sorted : (∀ p ∈ ps, p.attached.Pairwise (· < ·)) → ∀ p ∈ ps', p.attached.Pairwise (· < ·)
  mem : ∀ i p p', ps[i]? = some p → ps'[i]? = some p' → ∀ x, x ∈ p'.attached ↔ x ∈ p.attached ∨ R i x

omit [Ring K] in
theorem Attached.length {ps ps' : List Poly} {R : Nat → List Nat → Prop} (h : Attached ps R ps') :
    ps'.length = ps.length := by
  have := congrArg List.length h.nodes
  simpa using this

omit [Ring K] in
theorem Attached.refl (ps : List Poly) (R : Nat → List Nat → Prop) (hR : ∀ i x, ¬ R i x) : Attached ps R ps :=
  ⟨rfl, rfl, fun h => h, fun i p p' h h' x => by
    rw [h] at h'
    cases h'
    simp [hR]⟩

omit [Ring K] in
theorem Attached.trans {ps ps' ps'' : List Poly} {R S T : Nat → List Nat → Prop} (h : Attached ps R ps')
    (h' : Attached ps' S ps'') (hT : ∀ i x, T i x ↔ R i x ∨ S i x) : Attached ps T ps'' :=
  ⟨h'.nodes.trans h.nodes, h'.dom.trans h.dom, fun hs => h'.sorted (h.sorted hs), fun i p p'' hp hp'' x => by
    have hi : i < ps'.length := h.length ▸ (List.getElem?_eq_some_iff.1 hp).1
    rw [h'.mem i _ p'' (List.getElem?_eq_getElem hi) hp'', h.mem i p _ hp (List.getElem?_eq_getElem hi), hT, or_assoc]⟩

omit [Ring K] in
theorem attach_side (ps : List Poly) (o : Option Nat) (e : List Nat) (h : ∀ i, o = some i → i < ps.length) :
    ∃ ps', attach ps (side o) e = .ok ps' ∧ Attached ps (fun i x => o = some i ∧ x = e) ps' := by
  cases o with
  | none => exact ⟨ps, rfl, Attached.refl _ _ (by simp)⟩
  | some n =>
    have hn := h n rfl
    refine ⟨ps.set n { ps[n] with attached := insertEdge e ps[n].attached }, ?_, ?_⟩
    · simp only [attach, side, Nat.zero_lt_succ, if_true, Nat.add_sub_cancel, List.getElem?_eq_getElem hn]
    · refine ⟨?_, ?_, ?_, ?_⟩
      · rw [List.map_set]
        exact List.ext_getElem (by simp) fun i h1 h2 => by
          rw [List.getElem_set]; split <;> simp_all
      · rw [List.map_set]
        exact List.ext_getElem (by simp) fun i h1 h2 => by
          rw [List.getElem_set]; split <;> simp_all
      · intro hs p hp
        rcases List.mem_or_eq_of_mem_set hp with hp | rfl
        · exact hs p hp
        · exact insertEdge_sorted _ _ (hs _ (List.getElem_mem _))
      · intro i p p' hp hp' x
        rw [List.getElem?_set] at hp'
        by_cases hni : n = i
        · subst hni
          rw [if_pos rfl, if_pos hn] at hp'
          rw [List.getElem?_eq_getElem hn] at hp
          cases hp; cases hp'
          rw [mem_insertEdge]
          simp [or_comm]
        · rw [if_neg hni, hp] at hp'
          cases hp'
          simp [hni]

omit [Ring K] in
theorem allEdges_text (vs : List (Line K)) (es : List Edge) (ht : List.Forall₂ EdgeLine vs es) (ps : List Poly)
    (h : ∀ e ∈ es, e.a ≠ e.b ∧ e.a + 1 < 2 ^ 64 ∧ e.b + 1 < 2 ^ 64 ∧
      (∀ i, e.left = some i → i < ps.length ∧ i + 1 < 2 ^ 64) ∧ ∀ i, e.right = some i → i < ps.length ∧ i + 1 < 2 ^ 64)
    (rest : List (Line K)) :
    ∃ ps', allEdges es.length (vs ++ rest) ps =
        .ok (some (ps', es.map (fun e => (ordered e.a e.b, side e.left, side e.right)), rest)) ∧
      Attached ps (fun i x => ∃ e ∈ es, e.Beside i ∧ x = ordered e.a e.b) ps' := by
  induction ht generalizing ps with
  | nil => exact ⟨ps, rfl, Attached.refl _ _ (by simp)⟩
  | @cons l e vs es hl _ ih =>
    obtain ⟨r, rfl⟩ := hl
    obtain ⟨h1, h2, h3, h4, h5⟩ := h e (by simp)
    have hs : ∀ o : Option Nat, (∀ i, o = some i → i < ps.length ∧ i + 1 < 2 ^ 64) → side o < 2 ^ 64 := by
      intro o ho
      cases o with
      | none => simp [side]
      | some i => exact (ho i rfl).2
    obtain ⟨p1, e1, a1⟩ := attach_side ps e.left (ordered e.a e.b) fun i hi => (h4 i hi).1
    obtain ⟨p2, e2, a2⟩ := attach_side p1 e.right (ordered e.a e.b) fun i hi => a1.length ▸ (h5 i hi).1
    have hl2 : p2.length = ps.length := a2.length.trans a1.length
    obtain ⟨p3, e3, a3⟩ := ih p2 fun q hq => hl2 ▸ h q (List.mem_cons_of_mem _ hq)
    refine ⟨p3, ?_, ?_⟩
    · simp only [List.length_cons, allEdges, List.cons_append, next, unat_nat _ h2, unat_nat _ h3, unat_nat _ (hs _ h4),
        unat_nat _ (hs _ h5), Option.bind_some, edgeOf_ordered _ _ h1, e1, e2, e3, Outcome.bind_ok, Option.map_some,
        List.map_cons]
    · refine (a1.trans a2 fun i x => Iff.rfl).trans a3 fun i x => ?_
      simp only [List.mem_cons, exists_eq_or_imp, Edge.Beside]
      exact or_congr_left or_and_right

/-! ### Blocks -/

omit [Ring K] in
theorem kind_poly (k : Nat) (name : String) (h : polyName k = some name) : kind ([.word name] : Line K) = .polys k := by
  unfold polyName at h
  split at h <;> first | contradiction | (cases h; simp [kind, asWords, polyKw])

/-- What a block adds to the data. -/
structure Adds (b : Block K) (d d' : Data K) : Prop where
  points : d'.points = d.points ++ b.points
  nodes : d'.polys.map (·.nodes) = d.polys.map (·.nodes) ++ b.polygons.map Prod.fst
  dom : d'.polys.map (·.dom) = d.polys.map (·.dom) ++ b.polygons.map fun p => p.2.getD 0
  bnd : d'.bnd = d.bnd ++ b.bnds.map fun e => ordered e.1 e.2
  edges : d'.edges = d.edges ++ b.all.map fun e => (ordered e.a e.b, side e.left, side e.right)
  sorted : (∀ p ∈ d.polys, p.attached.Pairwise (· < ·)) → ∀ p ∈ d'.polys, p.attached.Pairwise (· < ·)
  attached : ∀ i p', d'.polys[i]? = some p' → ∀ x, x ∈ p'.attached ↔
    (∃ p, d.polys[i]? = some p ∧ x ∈ p.attached) ∨ ∃ e ∈ b.all, e.Beside i ∧ x = ordered e.a e.b

theorem parseBlock_text (cap : Nat) (hcap : cap < 2 ^ 64) (b : Block K) (d : Data K) (hb : BlockOk cap d.polys.length b)
    (ls rest : List (Line K)) (ht : BlockText ls b) :
    ∃ d', parseBlock cap d (ls ++ rest) = .ok (some (d', rest)) ∧ Adds b d d' := by
  cases b with
  | blank =>
    obtain rfl : ls = [[]] := ht
    refine ⟨d, rfl, ?_⟩
    constructor <;> simp +contextual [Block.points, Block.polygons, Block.bnds, Block.all]
  | vertices pts =>
    obtain ⟨r, vs, hv, rfl⟩ := ht
    have hk : kind ([.word "vertices"] : Line K) = .vertices := by simp [kind, asWords]
    refine ⟨{ d with points := d.points ++ pts }, ?_, ?_⟩
    · simp only [parseBlock, List.cons_append, next, hk, unat_nat _ hb, vertices_text vs pts hv, Option.map_some]
    · constructor <;> simp +contextual [Block.points, Block.polygons, Block.bnds, Block.all]
  | polys k ps =>
    obtain ⟨name, r, hn, rfl⟩ := ht
    obtain ⟨h1, h2⟩ := hb
    refine ⟨{ d with polys := d.polys ++ ps.map fun p => ⟨p.1, [], p.2.getD 0⟩ }, ?_, ?_⟩
    · simp only [parseBlock, List.cons_append, next, kind_poly k name hn, unat_nat _ h1, polygons_text k ps h2,
        Outcome.bind_ok, Option.map_some]
    · constructor
      · simp [Block.points]
      · simp [Block.polygons]
      · simp [Block.polygons]
      · simp [Block.bnds]
      · simp [Block.all]
      · intro hs p hp
        rcases List.mem_append.1 hp with hp | hp
        · exact hs p hp
        · obtain ⟨q, _, rfl⟩ := List.mem_map.1 hp
          exact List.Pairwise.nil
      · intro i p' hp' x
        simp only [Block.all, List.not_mem_nil, false_and, exists_false, or_false]
        by_cases hi : i < d.polys.length
        · simp only [List.getElem?_append_left hi] at hp'
          simp [hp']
        · simp only [List.getElem?_append_right (Nat.le_of_not_lt hi), List.getElem?_map, Option.map_eq_some_iff] at hp'
          obtain ⟨q, _, rfl⟩ := hp'
          simp [List.getElem?_eq_none (Nat.le_of_not_lt hi)]
  | bnd t es =>
    obtain ⟨r, vs, hv, rfl⟩ := ht
    obtain ⟨h1, h2⟩ := hb
    have hk : kind (if t then [.word "edges", .word "of", .word "transmission"]
        else [.word "edges", .word "of", .word "the", .word "boundary"] : Line K) = .bnd := by
      cases t <;> simp [kind, asWords]
    refine ⟨{ d with bnd := d.bnd ++ es.map fun e => ordered e.1 e.2 }, ?_, ?_⟩
    · simp only [parseBlock, List.cons_append, next, hk, unat_nat _ (lt_of_le_of_lt h1 hcap), if_neg (not_lt.2 h1),
        boundary_text vs es hv h2, Option.map_some]
    · constructor <;> simp +contextual [Block.points, Block.polygons, Block.bnds, Block.all]
  | edges es =>
    obtain ⟨r, vs, hv, rfl⟩ := ht
    obtain ⟨h1, h2⟩ := hb
    have hk : kind ([.word "all", .word "edges"] : Line K) = .edges := by simp [kind, asWords]
    obtain ⟨ps', he, ha⟩ := allEdges_text vs es hv d.polys h2 rest
    refine ⟨{ d with polys := ps', edges := d.edges ++ es.map fun e => (ordered e.a e.b, side e.left, side e.right) }, ?_, ?_⟩
    · simp only [parseBlock, List.cons_append, next, hk, unat_nat _ h1, he, Outcome.bind_ok, Option.map_some]
    · constructor
      · simp [Block.points]
      · simp [Block.polygons, ha.nodes]
      · simp [Block.polygons, ha.dom]
      · simp [Block.bnds]
      · simp [Block.all]
      · exact ha.sorted
      · intro i p' hp' x
        have hi : i < d.polys.length := ha.length ▸ (List.getElem?_eq_some_iff.1 hp').1
        rw [ha.mem i _ p' (List.getElem?_eq_getElem hi) hp']
        simp [Block.all, List.getElem?_eq_getElem hi]

omit [Ring K] in
theorem holds_step (bs : List (Block K)) (b : Block K) (d d' : Data K) (h : Holds d bs) (ha : Adds b d d')
    (hold : ∀ e ∈ bs.flatMap Block.all, ∀ i, e.Beside i → i < d.polys.length) : Holds d' (bs ++ [b]) := by
  constructor
  · rw [ha.points, h.points]; simp
  · rw [ha.nodes, h.nodes]; simp
  · rw [ha.dom, h.dom]; simp
  · rw [ha.bnd, h.bnd]; simp
  · rw [ha.edges, h.edges]; simp
  · exact ha.sorted h.sorted
  · intro i p' hp' x
    rw [ha.attached i p' hp' x]
    simp only [List.flatMap_append, List.flatMap_singleton, List.mem_append, or_and_right, exists_or]
    refine or_congr_left ?_
    constructor
    · rintro ⟨p, hp, hx⟩
      exact (h.attached i p hp x).1 hx
    · rintro ⟨e, he, hb, hx⟩
      have hi := hold e he i hb
      exact ⟨_, List.getElem?_eq_getElem hi, (h.attached i _ (List.getElem?_eq_getElem hi) x).2 ⟨e, he, hb, hx⟩⟩

omit [Ring K] in
theorem holds_length {d : Data K} {bs : List (Block K)} (h : Holds d bs) :
    d.polys.length = (bs.flatMap Block.polygons).length := by
  have := congrArg List.length h.nodes
  simpa using this

theorem parseLoop_text (cap : Nat) (post : List (Block K)) (pre : List (Block K)) (hok : FileOk cap (pre ++ post))
    (ts : List (List (Line K))) (ht : List.Forall₂ BlockText ts post) (rest : List (Line K)) (d : Data K)
    (hd : Holds d pre) (hold : ∀ e ∈ pre.flatMap Block.all, ∀ i, e.Beside i → i < d.polys.length) (fuel : Nat)
    (hf : (ts.flatten ++ rest).length ≤ fuel) :
    ∃ d' fuel', Holds d' (pre ++ post) ∧ rest.length ≤ fuel' ∧
      parseLoop cap fuel d (ts.flatten ++ rest) = parseLoop cap fuel' d' rest := by
  induction post generalizing pre ts d fuel with
  | nil =>
    cases ht
    exact ⟨d, fuel, by simpa using hd, by simpa using hf, rfl⟩
  | cons b post ih =>
    cases ht with
    | @cons l _ ts _ hl ht =>
    have hb := hok.2 pre b post rfl
    rw [← holds_length hd] at hb
    obtain ⟨d', hp, ha⟩ := parseBlock_text cap hok.1 b d hb l (ts.flatten ++ rest) hl
    have hlen : d.polys.length ≤ d'.polys.length := by
      have := congrArg List.length ha.nodes
      simp only [List.length_map, List.length_append] at this
      omega
    have hne : ∃ x xs, l = x :: xs := by
      cases b with
      | blank => exact ⟨_, _, hl⟩
      | vertices _ => obtain ⟨_, _, _, h⟩ := hl; exact ⟨_, _, h⟩
      | polys _ _ => obtain ⟨_, _, _, h⟩ := hl; exact ⟨_, _, h⟩
      | bnd _ _ => obtain ⟨_, _, _, h⟩ := hl; exact ⟨_, _, h⟩
      | edges _ => obtain ⟨_, _, _, h⟩ := hl; exact ⟨_, _, h⟩
    obtain ⟨x, xs, rfl⟩ := hne
    simp only [List.flatten_cons, List.length_append, List.length_cons] at hf
    obtain ⟨f, rfl⟩ : ∃ f, fuel = f + 1 := ⟨fuel - 1, by omega⟩
    have hbe : ∀ e ∈ b.all, ∀ i, e.Beside i → i < d.polys.length := by
      intro e he i hi
      cases b with
      | edges es =>
        obtain ⟨_, _, _, h4, h5⟩ := hb.2 e he
        rcases hi with hi | hi
        · exact (h4 i hi).1
        · exact (h5 i hi).1
      | _ => simp [Block.all] at he
    obtain ⟨d2, f2, h1, h2, h3⟩ := ih (pre ++ [b]) (by simpa using hok) ts ht d' (holds_step pre b d d' hd ha hold) (by
      intro e he i hi
      rw [List.flatMap_append, List.mem_append] at he
      rcases he with he | he
      · exact lt_of_lt_of_le (hold e he i hi) hlen
      · exact lt_of_lt_of_le (hbe e (by simpa using he) i hi) hlen) f (by rw [List.length_append]; omega)
    refine ⟨d2, f2, by simpa using h1, h2, ?_⟩
    rw [← h3]
    simp only [List.flatten_cons, List.cons_append, List.append_assoc] at hp ⊢
    simp only [parseLoop, hp, Outcome.bind_ok]

theorem read_text (cap : Nat) (bs : List (Block K)) (hok : FileOk cap bs) (ls : List (Line K)) (ht : FileText ls bs)
    (rest : List (Line K)) : ∃ d fuel, Holds d bs ∧ rest.length ≤ fuel ∧ read cap (ls ++ rest) = parseLoop cap fuel d rest := by
  obtain ⟨ts, ht, rfl⟩ := ht
  have hd : Holds (⟨[], [], [], []⟩ : Data K) [] := by constructor <;> simp
  obtain ⟨d, f, h1, h2, h3⟩ := parseLoop_text cap bs [] hok ts ht rest ⟨[], [], [], []⟩ hd (by simp) _ le_rfl
  exact ⟨d, f, h1, h2, h3⟩

omit [Ring K] in
theorem holds_unique (bs : List (Block K)) (d d' : Data K) (h : Holds d bs) (h' : Holds d' bs) : d = d' := by
  have hp : d.polys = d'.polys := by
    have hn := h.nodes.trans h'.nodes.symm
    have hm := h.dom.trans h'.dom.symm
    have hl : d.polys.length = d'.polys.length := by simpa using congrArg List.length hn
    refine List.ext_getElem hl fun i hi hi' => ?_
    have e1 := congrArg (fun l : List (List Nat) => l[i]?) hn
    have e2 := congrArg (fun l : List Nat => l[i]?) hm
    simp only [List.getElem?_map, List.getElem?_eq_getElem hi, List.getElem?_eq_getElem hi', Option.map_some,
      Option.some.injEq] at e1 e2
    have s1 := h.sorted _ (List.getElem_mem hi)
    have s2 := h'.sorted _ (List.getElem_mem hi')
    have e3 : d.polys[i].attached = d'.polys[i].attached := by
      refine List.Perm.eq_of_pairwise (fun a b _ _ h1 h2 => absurd h1 (lt_asymm h2)) s1 s2
        ((List.perm_ext_iff_of_nodup (s1.imp fun h => ne_of_lt h) (s2.imp fun h => ne_of_lt h)).2 fun x => ?_)
      rw [h.attached i _ (List.getElem?_eq_getElem hi), h'.attached i _ (List.getElem?_eq_getElem hi')]
    generalize d.polys[i] = p at *
    generalize d'.polys[i] = q at *
    cases p; cases q
    simp_all
  have h1 := h.points.trans h'.points.symm
  have h2 := h.bnd.trans h'.bnd.symm
  have h3 := h.edges.trans h'.edges.symm
  cases d; cases d'
  simp_all

/-! ### Whatever is read -/

/-- Facts about all data read. -/
structure Inv (d : Data K) : Prop where
  edges : ∀ e ∈ d.edges, ∃ a b, e.1 = [a, b] ∧ a < b
  bnd : ∀ e ∈ d.bnd, ∃ a b, e = [a, b] ∧ a < b
  corners : ∀ p ∈ d.polys, 3 ≤ p.nodes.length ∧ p.nodes.length ≤ 8
  sorted : ∀ p ∈ d.polys, p.attached.Pairwise (· < ·)
  side : ∀ e ∈ d.edges, e.2.1 ≤ d.polys.length ∧ e.2.2 ≤ d.polys.length
  attached : ∀ i p, d.polys[i]? = some p → ∀ x, x ∈ p.attached ↔
    ∃ e ∈ d.edges, e.1 = x ∧ (e.2.1 = i + 1 ∨ e.2.2 = i + 1)

omit [Ring K] in
theorem edgeOf_shape {a b : Nat} {e : List Nat} (h : edgeOf a b = some e) : ∃ x y, e = [x, y] ∧ x < y := by
  unfold edgeOf at h
  split at h
  · contradiction
  · split at h
    · contradiction
    · split at h <;> cases h
      · exact ⟨_, _, rfl, ‹_›⟩
      · exact ⟨_, _, rfl, by omega⟩

omit [Ring K] in
theorem boundary_shape (n : Nat) (ls : List (Line K)) (r : List (List Nat) × List (Line K))
    (h : boundaryEdges n ls = some r) : ∀ e ∈ r.1, ∃ a b, e = [a, b] ∧ a < b := by
  induction n generalizing ls r with
  | zero => cases h; simp
  | succ n ih =>
    simp only [boundaryEdges, Option.bind_eq_some_iff] at h
    obtain ⟨a, _, b, _, e, he, r', hr, hx⟩ := h
    cases hx
    intro x hx
    rcases List.mem_cons.1 hx with rfl | hx
    · exact edgeOf_shape he
    · exact ih _ _ hr x hx

omit [Ring K] in
theorem corners_length (k : Nat) (l : Line K) (r : List Nat × Line K) (h : corners k l = .ok (some r)) :
    r.1.length = k := by
  induction k generalizing l r with
  | zero => cases h; rfl
  | succ k ih =>
    unfold corners at h
    split at h
    · rename_i v _
      cases hc : corners k v.2 with
      | ok c =>
        rw [hc, Outcome.bind_ok] at h
        cases c with
        | none => simp at h
        | some c =>
          simp only [Option.map_some, Outcome.ok.injEq, Option.some.injEq] at h
          subst h
          simp [ih _ _ hc]
      | throws s => rw [hc] at h; cases h
      | ub s => rw [hc] at h; cases h
    · split at h <;> cases h

omit [Ring K] in
theorem polygons_shape (k n : Nat) (ls : List (Line K)) (r : List Poly × List (Line K))
    (h : polygons k n ls = .ok (some r)) : ∀ p ∈ r.1, p.nodes.length = k ∧ p.attached = [] := by
  induction n generalizing ls r with
  | zero => cases h; simp
  | succ n ih =>
    unfold polygons at h
    cases hc : corners k (next ls).1 with
    | ok c =>
      rw [hc, Outcome.bind_ok] at h
      cases c with
      | none => cases h
      | some c =>
        simp only at h
        cases hp : polygons k n (next ls).2 with
        | ok q =>
          rw [hp, Outcome.bind_ok] at h
          cases q with
          | none => simp at h
          | some q =>
            simp only [Option.map_some, Outcome.ok.injEq, Option.some.injEq] at h
            subst h
            intro p hp'
            rcases List.mem_cons.1 hp' with rfl | hp'
            · exact ⟨corners_length _ _ _ hc, rfl⟩
            · exact ih _ _ hp p hp'
        | throws s => rw [hp] at h; cases h
        | ub s => rw [hp] at h; cases h
    | throws s => rw [hc] at h; cases h
    | ub s => rw [hc] at h; cases h

omit [Ring K] in
theorem attach_inv {ps ps' : List Poly} {n : Nat} {e : List Nat} (h : attach ps n e = .ok ps') :
    n ≤ ps.length ∧ Attached ps (fun i x => n = i + 1 ∧ x = e) ps' := by
  cases n with
  | zero =>
    cases h
    exact ⟨Nat.zero_le _, Attached.refl _ _ (by simp)⟩
  | succ n =>
    by_cases hn : n < ps.length
    · obtain ⟨q, hq, ha⟩ := attach_side ps (some n) e (by intro i hi; cases hi; exact hn)
      have : q = ps' := by
        have := hq.symm.trans h
        simpa using this
      subst this
      refine ⟨hn, ?_⟩
      simpa using ha
    · simp [attach, List.getElem?_eq_none (Nat.le_of_not_lt hn)] at h

omit [Ring K] in
theorem allEdges_inv (n : Nat) (ls : List (Line K)) (ps : List Poly)
    (r : List Poly × List (List Nat × Nat × Nat) × List (Line K)) (h : allEdges n ls ps = .ok (some r)) :
    (∀ e ∈ r.2.1, (∃ a b, e.1 = [a, b] ∧ a < b) ∧ e.2.1 ≤ ps.length ∧ e.2.2 ≤ ps.length) ∧
    Attached ps (fun i x => ∃ e ∈ r.2.1, e.1 = x ∧ (e.2.1 = i + 1 ∨ e.2.2 = i + 1)) r.1 := by
  induction n generalizing ls ps r with
  | zero => cases h; exact ⟨by simp, Attached.refl _ _ (by simp)⟩
  | succ n ih =>
    unfold allEdges at h
    split at h
    · cases h
    · rename_i x hx
      simp only [Option.bind_eq_some_iff] at hx
      obtain ⟨a, _, b, _, na, _, nb, _, e, he, hx⟩ := hx
      cases hx
      dsimp only at h
      cases h1 : attach ps na.1 e with
      | throws s => rw [h1] at h; cases h
      | ub s => rw [h1] at h; cases h
      | ok p1 =>
        rw [h1, Outcome.bind_ok] at h
        cases h2 : attach p1 nb.1 e with
        | throws s => rw [h2] at h; cases h
        | ub s => rw [h2] at h; cases h
        | ok p2 =>
          rw [h2, Outcome.bind_ok] at h
          cases h3 : allEdges n (next ls).2 p2 with
          | throws s => rw [h3] at h; cases h
          | ub s => rw [h3] at h; cases h
          | ok q =>
            rw [h3, Outcome.bind_ok] at h
            cases q with
            | none => simp at h
            | some q =>
              simp only [Option.map_some, Outcome.ok.injEq, Option.some.injEq] at h
              subst h
              obtain ⟨l1, a1⟩ := attach_inv h1
              obtain ⟨l2, a2⟩ := attach_inv h2
              obtain ⟨s3, a3⟩ := ih _ _ _ h3
              have hl1 := a1.length
              have hl2 := a2.length
              refine ⟨fun y hy => ?_, ?_⟩
              · rcases List.mem_cons.1 hy with rfl | hy
                · exact ⟨edgeOf_shape he, l1, by simpa [hl1] using l2⟩
                · have := s3 y hy
                  exact ⟨this.1, by omega, by omega⟩
              · refine (a1.trans a2 fun i x => Iff.rfl).trans a3 fun i x => ?_
                simp only [List.mem_cons, exists_eq_or_imp]
                refine or_congr_left ?_
                constructor
                · rintro ⟨rfl, h | h⟩
                  · exact Or.inl ⟨h, rfl⟩
                  · exact Or.inr ⟨h, rfl⟩
                · rintro (⟨h, rfl⟩ | ⟨h, rfl⟩)
                  · exact ⟨rfl, Or.inl h⟩
                  · exact ⟨rfl, Or.inr h⟩

omit [Ring K] in
theorem kind_polys (l : Line K) (k : Nat) (h : kind l = .polys k) : 3 ≤ k ∧ k ≤ 8 := by
  unfold kind at h
  split at h
  · cases h
  · iterate 5 (split at h; · cases h)
    split at h
    · rename_i p hp
      have := List.mem_of_find?_eq_some hp
      cases h
      simp only [polyKw, List.mem_cons, List.not_mem_nil, or_false] at this
      rcases this with rfl | rfl | rfl | rfl | rfl | rfl <;> decide
    · cases h

theorem parseBlock_inv (cap : Nat) (d : Data K) (hd : Inv d) (ls : List (Line K)) (r : Data K × List (Line K))
    (h : parseBlock cap d ls = .ok (some r)) : Inv r.1 := by
  unfold parseBlock at h
  split at h
  · cases h; exact hd
  · cases h
  · split at h
    · cases h
    · simp only [Outcome.ok.injEq, Option.map_eq_some_iff] at h
      obtain ⟨q, _, rfl⟩ := h
      exact ⟨hd.edges, hd.bnd, hd.corners, hd.sorted, hd.side, hd.attached⟩
  · rename_i k hk
    split at h
    · cases h
    · rename_i n _
      cases hp : polygons k n.1 (next (next ls).2).2 with
      | throws s => rw [hp] at h; cases h
      | ub s => rw [hp] at h; cases h
      | ok q =>
        rw [hp, Outcome.bind_ok] at h
        simp only [Outcome.ok.injEq, Option.map_eq_some_iff] at h
        obtain ⟨q, rfl, rfl⟩ := h
        have hq := polygons_shape k _ _ q hp
        have hk' := kind_polys _ _ hk
        refine ⟨hd.edges, hd.bnd, ?_, ?_, ?_, ?_⟩
        · intro p hp
          rcases List.mem_append.1 hp with hp | hp
          · exact hd.corners p hp
          · have := (hq p hp).1; omega
        · intro p hp
          rcases List.mem_append.1 hp with hp | hp
          · exact hd.sorted p hp
          · rw [(hq p hp).2]; exact List.Pairwise.nil
        · intro e he
          have := hd.side e he
          simp only [List.length_append]
          omega
        · intro i p hp x
          by_cases hi : i < d.polys.length
          · simp only [List.getElem?_append_left hi] at hp
            exact hd.attached i p hp x
          · simp only [List.getElem?_append_right (Nat.le_of_not_lt hi)] at hp
            rw [(hq p (List.mem_of_getElem? hp)).2]
            simp only [List.not_mem_nil, false_iff]
            rintro ⟨e, he, _, h⟩
            have := hd.side e he
            omega
  · split at h
    · cases h
    · split at h
      · cases h
      · simp only [Outcome.ok.injEq, Option.map_eq_some_iff] at h
        obtain ⟨q, hq, rfl⟩ := h
        refine ⟨hd.edges, ?_, hd.corners, hd.sorted, hd.side, hd.attached⟩
        intro e he
        rcases List.mem_append.1 he with he | he
        · exact hd.bnd e he
        · exact boundary_shape _ _ _ hq e he
  · split at h
    · cases h
    · rename_i n _
      cases hp : allEdges n.1 (next (next ls).2).2 d.polys with
      | throws s => rw [hp] at h; cases h
      | ub s => rw [hp] at h; cases h
      | ok q =>
        rw [hp, Outcome.bind_ok] at h
        simp only [Outcome.ok.injEq, Option.map_eq_some_iff] at h
        obtain ⟨q, rfl, rfl⟩ := h
        obtain ⟨s, a⟩ := allEdges_inv _ _ _ q hp
        have hl := a.length
        refine ⟨?_, hd.bnd, ?_, a.sorted hd.sorted, ?_, ?_⟩
        · intro e he
          rcases List.mem_append.1 he with he | he
          · exact hd.edges e he
          · exact (s e he).1
        · intro p hp
          obtain ⟨i, hi, rfl⟩ := List.mem_iff_getElem.1 hp
          have hn := congrArg (fun l : List (List Nat) => l[i]?) a.nodes
          simp only [List.getElem?_map, List.getElem?_eq_getElem hi, List.getElem?_eq_getElem (hl ▸ hi), Option.map_some,
            Option.some.injEq] at hn
          rw [hn]
          exact hd.corners _ (List.getElem_mem _)
        · intro e he
          simp only [hl]
          rcases List.mem_append.1 he with he | he
          · exact hd.side e he
          · exact (s e he).2
        · intro i p hp x
          have hi : i < d.polys.length := hl ▸ (List.getElem?_eq_some_iff.1 hp).1
          rw [a.mem i _ p (List.getElem?_eq_getElem hi) hp, hd.attached i _ (List.getElem?_eq_getElem hi)]
          simp only [List.mem_append, or_and_right, exists_or]

theorem parseLoop_inv (cap fuel : Nat) (d : Data K) (hd : Inv d) (ls : List (Line K)) (d' : Data K)
    (h : parseLoop cap fuel d ls = .ok (some d')) : Inv d' := by
  induction fuel generalizing d ls with
  | zero =>
    cases ls with
    | nil => cases h; exact hd
    | cons l ls => cases h
  | succ f ih =>
    cases ls with
    | nil => cases h; exact hd
    | cons l ls =>
      unfold parseLoop at h
      cases hp : parseBlock cap d (l :: ls) with
      | throws s => rw [hp] at h; cases h
      | ub s => rw [hp] at h; cases h
      | ok r =>
        rw [hp, Outcome.bind_ok] at h
        cases r with
        | none => cases h
        | some r => exact ih r.1 (parseBlock_inv cap d hd _ _ hp) _ h

theorem read_inv (cap : Nat) (ls : List (Line K)) (d : Data K) (h : read cap ls = .ok (some d)) : Inv d :=
  parseLoop_inv cap _ _ (by constructor <;> simp) ls d h

/-! ### What is refused -/

omit [Ring K] in
theorem asWords_eq (l : Line K) (ws : List String) (h : asWords l = some ws) : l = ws.map .word := by
  induction l generalizing ws with
  | nil => cases h; rfl
  | cons t ts ih =>
    cases t with
    | word s =>
      simp only [asWords, Option.map_eq_some_iff] at h
      obtain ⟨w, hw, rfl⟩ := h
      rw [ih w hw]; rfl
    | _ => simp [asWords] at h

theorem kind_unknown (l : Line K) (h : ∀ ls b, ¬ BlockText (l :: ls) b) : kind l = .unknown := by
  unfold kind
  cases hw : asWords l with
  | none => rfl
  | some ws =>
    have hl := asWords_eq l ws hw
    simp only
    have h0 : ws ≠ [] := by
      rintro rfl
      exact h [] .blank (by rw [hl]; rfl)
    have h1 : ws ≠ ["vertices"] := by
      rintro rfl
      exact h _ (.vertices []) ⟨[], [], .nil, by rw [hl]; rfl⟩
    have h2 : ws ≠ ["edges", "of", "the", "boundary"] := by
      rintro rfl
      exact h _ (.bnd false []) ⟨[], [], .nil, by rw [hl]; rfl⟩
    have h3 : ws ≠ ["edges", "of", "transmission"] := by
      rintro rfl
      exact h _ (.bnd true []) ⟨[], [], .nil, by rw [hl]; rfl⟩
    have h4 : ws ≠ ["all", "edges"] := by
      rintro rfl
      exact h _ (.edges []) ⟨[], [], .nil, by rw [hl]; rfl⟩
    rw [if_neg h0, if_neg h1, if_neg h2, if_neg h3, if_neg h4]
    cases hf : polyKw.find? fun p => ws = [p.1] with
    | none => rfl
    | some p =>
      exfalso
      have hp := List.find?_some hf
      have hm := List.mem_of_find?_eq_some hf
      have hwp : ws = [p.1] := by simpa using hp
      have hname : polyName p.2 = some p.1 := by
        simp only [polyKw, List.mem_cons, List.not_mem_nil, or_false] at hm
        rcases hm with rfl | rfl | rfl | rfl | rfl | rfl <;> rfl
      exact h _ (.polys p.2 []) ⟨p.1, [], hname, by rw [hl, hwp]; rfl⟩

theorem parseLoop_refuse (cap fuel : Nat) (d : Data K) (l : Line K) (ls : List (Line K)) (hf : (l :: ls).length ≤ fuel)
    (h : parseBlock cap d (l :: ls) = .ok none) : parseLoop cap fuel d (l :: ls) = .ok none := by
  obtain ⟨f, rfl⟩ : ∃ f, fuel = f + 1 := ⟨fuel - 1, by simp only [List.length_cons] at hf; omega⟩
  simp only [parseLoop, h, Outcome.bind_ok]

omit [Ring K] in
/-- A line two nodes cannot be read from, or with nodes that do not make an edge. -/
theorem boundary_bad (vs : List (Line K)) (es : List (Nat × Nat)) (ht : List.Forall₂ BndLine vs es)
    (h : ∀ e ∈ es, e.1 ≠ e.2 ∧ e.1 + 1 < 2 ^ 64 ∧ e.2 + 1 < 2 ^ 64) (n : Nat) (hn : es.length < n) (rest : List (Line K))
    (hb : ((unat (next rest).1).bind fun a => (unat a.2).bind fun b => edgeOf a.1 b.1) = none) :
    boundaryEdges n (vs ++ rest) = none := by
  induction ht generalizing n with
  | nil =>
    obtain ⟨k, rfl⟩ : ∃ k, n = k + 1 := ⟨n - 1, by simp only [List.length_nil] at hn; omega⟩
    rw [List.nil_append, boundaryEdges]
    cases ha : unat (next rest).1 with
    | none => rfl
    | some a =>
      rw [ha, Option.bind_some] at hb
      rw [Option.bind_some]
      cases hbb : unat a.2 with
      | none => rfl
      | some b =>
        rw [hbb, Option.bind_some] at hb
        rw [Option.bind_some, hb]
        rfl
  | @cons l e vs es hl _ ih =>
    obtain ⟨r, rfl⟩ := hl
    obtain ⟨h1, h2, h3⟩ := h e (by simp)
    obtain ⟨k, rfl⟩ : ∃ k, n = k + 1 := ⟨n - 1, by simp only [List.length_cons] at hn; omega⟩
    simp only [boundaryEdges, List.cons_append, next, unat_nat _ h2, unat_nat _ h3, Option.bind_some,
      edgeOf_ordered _ _ h1, ih (fun q hq => h q (List.mem_cons_of_mem _ hq)) k (by simp only [List.length_cons] at hn; omega),
      Option.bind_none]

omit [Ring K] in
theorem allEdges_bad (vs : List (Line K)) (es : List Edge) (ht : List.Forall₂ EdgeLine vs es) (ps : List Poly)
    (h : ∀ e ∈ es, e.a ≠ e.b ∧ e.a + 1 < 2 ^ 64 ∧ e.b + 1 < 2 ^ 64 ∧
      (∀ i, e.left = some i → i < ps.length ∧ i + 1 < 2 ^ 64) ∧ ∀ i, e.right = some i → i < ps.length ∧ i + 1 < 2 ^ 64)
    (n : Nat) (hn : es.length < n) (rest : List (Line K))
    (hb : ((unat (next rest).1).bind fun a => (unat a.2).bind fun b => (unat b.2).bind fun na => (unat na.2).bind fun nb =>
      (edgeOf a.1 b.1).bind fun e => some (e, na.1, nb.1)) = none) :
    allEdges n (vs ++ rest) ps = .ok none := by
  induction ht generalizing n ps with
  | nil =>
    obtain ⟨k, rfl⟩ : ∃ k, n = k + 1 := ⟨n - 1, by simp only [List.length_nil] at hn; omega⟩
    rw [List.nil_append, allEdges, hb]
  | @cons l e vs es hl _ ih =>
    obtain ⟨r, rfl⟩ := hl
    obtain ⟨h1, h2, h3, h4, h5⟩ := h e (by simp)
    obtain ⟨k, rfl⟩ : ∃ k, n = k + 1 := ⟨n - 1, by simp only [List.length_cons] at hn; omega⟩
    have hs : ∀ o : Option Nat, (∀ i, o = some i → i < ps.length ∧ i + 1 < 2 ^ 64) → side o < 2 ^ 64 := by
      intro o ho
      cases o with
      | none => simp [side]
      | some i => exact (ho i rfl).2
    obtain ⟨p1, e1, a1⟩ := attach_side ps e.left (ordered e.a e.b) fun i hi => (h4 i hi).1
    obtain ⟨p2, e2, a2⟩ := attach_side p1 e.right (ordered e.a e.b) fun i hi => a1.length ▸ (h5 i hi).1
    have hl2 : p2.length = ps.length := a2.length.trans a1.length
    simp only [allEdges, List.cons_append, next, unat_nat _ h2, unat_nat _ h3, unat_nat _ (hs _ h4),
        unat_nat _ (hs _ h5), Option.bind_some, edgeOf_ordered _ _ h1, e1, e2, Outcome.bind_ok,
        ih p2 (fun q hq => hl2 ▸ h q (List.mem_cons_of_mem _ hq)) k (by simp only [List.length_cons] at hn; omega),
        Option.map_none]

theorem vertices_bad (vs : List (Line K)) (pts : List (K × K)) (h : List.Forall₂ VertexLine vs pts) (n : Nat)
    (hn : pts.length < n) (rest : List (Line K))
    (hb : ((ucoord (next rest).1).bind fun x => ucoord x.2) = none) : vertices n (vs ++ rest) = none := by
  induction h generalizing n with
  | nil =>
    obtain ⟨k, rfl⟩ : ∃ k, n = k + 1 := ⟨n - 1, by simp only [List.length_nil] at hn; omega⟩
    rw [List.nil_append, vertices]
    cases ha : ucoord (next rest).1 with
    | none => rfl
    | some a =>
      rw [ha, Option.bind_some] at hb
      rw [Option.bind_some, hb]
      rfl
  | @cons l p vs pts hl _ ih =>
    obtain ⟨k, rfl⟩ : ∃ k, n = k + 1 := ⟨n - 1, by simp only [List.length_cons] at hn; omega⟩
    simp only [vertices, List.cons_append, next, ih k (by simp only [List.length_cons] at hn; omega), Option.bind_none]
    cases ucoord l with
    | none => rfl
    | some x => rw [Option.bind_some]; cases ucoord x.2 <;> rfl

end Verif.Fvca5
