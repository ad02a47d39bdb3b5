import Verif.Lemmas.MeshFile
/-! C136–C139: Netgen and Cartesian mesh files. -/
namespace Verif.Props.MeshFile
open Verif.MeshFile Verif.Spec Verif.MeshTopo
variable {K : Type} [Ring K]

/-- Two triangles of a square in different subdomains; the diagonal is listed among the boundary edges. -/
def exSquare : FileMesh ℤ :=
  { points := [[0, 0], [1, 0], [0, 1], [1, 1]]
    cells := [(2, [1, 3, 2]), (1, [0, 1, 2])]
    bnd := [(5, [1, 0]), (7, [1, 2])] }

/-- Its text. -/
def exSquareText : List (Tok ℤ) :=
  natTok 4 :: ([0, 0, 1, 0, 0, 1, 1, 1].map Tok.int ++ natTok 2 :: (exSquare.cells.flatMap netgenLine ++
    natTok 2 :: (exSquare.bnd.flatMap netgenLine ++ [])))

theorem exSquare_text : TextOf netgenLine exSquareText exSquare :=
  ⟨[0, 0, 1, 0, 0, 1, 1, 1].map Tok.int, [], by
    simp only [exSquare, List.flatten_cons, List.flatten_nil, List.append_nil, List.cons_append, List.nil_append,
      List.map_cons, List.map_nil]
    repeat' first | exact List.Forall₂.nil | refine List.Forall₂.cons ?_ ?_
    all_goals simp [CoordTok], rfl⟩

theorem exSquare_ok : FileOk 100 2 3 2 exSquare := by
  constructor <;> decide

/-! ### C136: Netgen files in two dimensions -/

/-- C136 (what is stored): reading the text of a mesh whose boundary edges are edges of its triangles succeeds. The
points are those of the file in the same order, with one node each; the edges are the pairs of corners of the triangles
and the cells the triples, each once and in increasing order; an edge is a boundary edge exactly if the file lists it,
with the number given last. There is one subdomain entry per cell. -/
theorem c136_load_partial (cap : Nat) (m : FileMesh K) (hm : FileOk cap 2 3 2 m) (pad : Bool) (toks : List (Tok K))
    (ht : TextOf netgenLine toks m) (hb : ∀ f ∈ m.bnd, ∃ c ∈ m.cells, ∀ i ∈ f.2, i ∈ c.2) :
    ∃ s, loadNetgen2 cap (.file pad toks) = .ok (true, s) ∧ PointsAs s m ∧
      Collects s.edges (fun e => ∃ c ∈ m.cells, SubSimplex 2 e c.2) ∧
      Collects s.surfaces (fun t => ∃ c ∈ m.cells, SubSimplex 3 t c.2) ∧ s.volumes = [] ∧
      FlaggedAs s.boundary s.edges m.bnd ∧ s.subdomains.length = s.surfaces.length := by
  have hedge : ∀ e, e ∈ (m.cells.map Prod.snd).flatMap triEdges ↔ ∃ c ∈ m.cells, SubSimplex 2 e c.2 := by
    intro e
    rw [List.mem_flatMap]
    constructor
    · rintro ⟨p, hp, he⟩
      obtain ⟨c, hc, rfl⟩ := List.mem_map.1 hp
      exact ⟨c, hc, (mem_triEdges c.2 e (hm.cell c hc).2.1 (hm.cell c hc).2.2.1).1 he⟩
    · rintro ⟨c, hc, he⟩
      exact ⟨c.2, List.mem_map_of_mem hc, (mem_triEdges c.2 e (hm.cell c hc).2.1 (hm.cell c hc).2.2.1).2 he⟩
  have hsurf : ∀ t, t ∈ (m.cells.map Prod.snd).map simplex ↔ ∃ c ∈ m.cells, SubSimplex 3 t c.2 := by
    intro t
    rw [List.map_map, List.mem_map]
    constructor
    · rintro ⟨c, hc, rfl⟩
      refine ⟨c, hc, ?_⟩
      have := (subSimplex_full c.2 (simplex c.2) (hm.cell c hc).2.2.1).2 rfl
      rwa [(hm.cell c hc).2.1] at this
    · rintro ⟨c, hc, he⟩
      have := subSimplex_full c.2 t (hm.cell c hc).2.2.1
      rw [(hm.cell c hc).2.1] at this
      exact ⟨c, hc, (this.1 he).symm⟩
  have hx : ∀ x ∈ m.bnd.map (fun x => (simplex x.2, x.1)), x.1 ∈ sortUniq ((m.cells.map Prod.snd).flatMap triEdges) := by
    intro x hx
    obtain ⟨f, hf, rfl⟩ := List.mem_map.1 hx
    obtain ⟨c, hc, hfc⟩ := hb f hf
    rw [mem_sortUniq, hedge]
    refine ⟨c, hc, simplex_sorted f.2 (hm.face f hf).2.2.1, ?_, fun i hi => hfc i ((simplex_perm _).mem_iff.1 hi)⟩
    rw [(simplex_perm _).length_eq, (hm.face f hf).2.1]
  obtain ⟨hf1, hf2⟩ := flag_replicate _ (sortUniq_sorted _) _ hx
  have hpop : (populate2 (⟨m.points, m.cells.map netgenNums, m.bnd.map netgenNums⟩ : Raw K)).2 =
      { points := m.points, nodes := mkNodes m.points.length,
        edges := sortUniq ((m.cells.map Prod.snd).flatMap triEdges),
        surfaces := sortUniq ((m.cells.map Prod.snd).map simplex), volumes := [],
        boundary := (sortUniq ((m.cells.map Prod.snd).flatMap triEdges)).map fun f => descOf (listedNumber m.bnd f),
        subdomains := List.replicate (sortUniq ((m.cells.map Prod.snd).map simplex)).length 0 } := by
    simp only [populate2, cells_corners hm, lines_num hm, hf1, hf2, if_true]
    congr 1
    refine List.map_congr_left fun f hf => ?_
    rw [listed_simplex m.bnd (fun x hx => (hm.face x hx).2.2.1) f ?_]
    obtain ⟨c, _, hc⟩ := (hedge f).1 ((mem_sortUniq _ _).1 hf)
    exact hc.1
  have hload : loadNetgen2 cap (.file pad toks) =
      .ok (true, (populate2 (⟨m.points, m.cells.map netgenNums, m.bnd.map netgenNums⟩ : Raw K)).2) := by
    have hr : readRaw pad cap 2 4 3 toks = _ := readNetgen pad cap 2 3 2 m hm toks ht
    simp only [loadNetgen2, hr, Outcome.bind_ok]
  rw [hpop] at hload
  exact ⟨_, hload, ⟨rfl, by simp [mkNodes], fun i hi => by simp [mkNodes, hi]⟩,
    Collects.congr (collects_sortUniq _) hedge, Collects.congr (collects_sortUniq _) hsurf, rfl,
    flaggedAs_map _ _, List.length_replicate⟩

example : loadNetgen2 100 (.file true exSquareText) = .ok (true,
    { points := [[0, 0], [1, 0], [0, 1], [1, 1]], nodes := [[0], [1], [2], [3]],
      edges := [[0, 1], [0, 2], [1, 2], [1, 3], [2, 3]], surfaces := [[0, 1, 2], [1, 2, 3]], volumes := [],
      boundary := [.mk2 5 true, .default, .mk2 7 true, .default, .default], subdomains := [0, 0] }) := by
  decide +kernel

example : ∃ s, loadNetgen2 100 (.file true exSquareText) = .ok (true, s) ∧ PointsAs s exSquare :=
  have ⟨s, h, hp, _⟩ := c136_load_partial 100 exSquare exSquare_ok true exSquareText exSquare_text (by decide)
  ⟨s, h, hp⟩

/-- C136 (violated): the subdomain numbers of the triangles are not kept. -/
theorem c136_subdomain_violated : ∃ (m : FileMesh ℤ) (toks : List (Tok ℤ)) (s : Storage ℤ),
    FileOk 100 2 3 2 m ∧ TextOf netgenLine toks m ∧ loadNetgen2 100 (.file true toks) = .ok (true, s) ∧
    (2, [1, 3, 2]) ∈ m.cells ∧ domainInfo s s.surfaces [1, 2, 3] = .ok 0 :=
  ⟨exSquare, exSquareText, _, exSquare_ok, exSquare_text, by rfl, by decide, by decide +kernel⟩

/-- C136 (violated): an edge between two triangles that the file lists is an ordinary boundary edge of the mesh, not an
internal one. -/
theorem c136_interface_violated : ∃ (m : FileMesh ℤ) (toks : List (Tok ℤ)) (s : Storage ℤ),
    FileOk 100 2 3 2 m ∧ TextOf netgenLine toks m ∧ loadNetgen2 100 (.file true toks) = .ok (true, s) ∧
    cellsAround m.cells [1, 2] = 2 ∧ s.edges[2]? = some [1, 2] ∧
    ∃ d, s.boundary[2]? = some d ∧ d.isB = true ∧ d.isInt = false :=
  ⟨exSquare, exSquareText, _, exSquare_ok, exSquare_text, by rfl, by decide, by decide +kernel, .mk2 7 true,
    by decide +kernel, rfl, rfl⟩

/-! ### C137: Netgen files in three dimensions -/

/-- Two tetrahedra with a common face in different subdomains. -/
def exTets : FileMesh ℤ :=
  { points := [[0, 0, 0], [1, 0, 0], [0, 1, 0], [0, 0, 1], [1, 1, 1]]
    cells := [(3, [4, 2, 1, 3]), (1, [1, 0, 2, 3])]
    bnd := [(5, [1, 0, 2]), (7, [3, 1, 2])] }

/-- Its text. -/
def exTetsText : List (Tok ℤ) :=
  natTok 5 :: (exTets.points.flatten.map Tok.int ++ natTok 2 :: (exTets.cells.flatMap netgenLine ++
    natTok 2 :: (exTets.bnd.flatMap netgenLine ++ [])))

theorem exTets_text : TextOf netgenLine exTetsText exTets :=
  ⟨exTets.points.flatten.map Tok.int, [], by
    simp only [exTets, List.flatten_cons, List.flatten_nil, List.append_nil, List.cons_append, List.nil_append,
      List.map_cons, List.map_nil]
    repeat' first | exact List.Forall₂.nil | refine List.Forall₂.cons ?_ ?_
    all_goals simp [CoordTok], rfl⟩

theorem exTets_ok : FileOk 100 3 4 3 exTets := by
  constructor <;> decide

/-- C137 (what is stored): reading the text of a mesh whose boundary faces are faces of its tetrahedra, with at most two
tetrahedra around a face, succeeds. Points, edges and faces are those of the file, each once and in increasing order;
the volumes are those of the file in non-decreasing order, each with its subdomain number; a face is a boundary face
exactly if the file lists it, with the number given last, and is internal exactly if moreover two tetrahedra share
it. -/
theorem c137_load (srt : List (List Nat × Nat) → List (List Nat × Nat)) (hs : IsSort srt) (cap : Nat) (m : FileMesh K)
    (hm : FileOk cap 3 4 3 m) (pad : Bool) (toks : List (Tok K)) (ht : TextOf netgenLine toks m)
    (hb : ∀ f ∈ m.bnd, ∃ c ∈ m.cells, ∀ i ∈ f.2, i ∈ c.2)
    (h2 : ∀ f : List Nat, f.length = 3 → f.Nodup → cellsAround m.cells f ≤ 2) :
    ∃ s, loadNetgen3 srt cap (.file pad toks) = .ok (true, s) ∧ PointsAs s m ∧
      Collects s.edges (fun e => ∃ c ∈ m.cells, SubSimplex 2 e c.2) ∧
      Collects s.surfaces (fun t => ∃ c ∈ m.cells, SubSimplex 3 t c.2) ∧
      s.volumes.Pairwise (· ≤ ·) ∧ (∀ v ∈ s.volumes, v.Pairwise (· < ·)) ∧
      s.volumes.length = m.cells.length ∧ s.subdomains.length = m.cells.length ∧
      (∃ l : List (Nat × List Nat), l.Perm m.cells ∧ s.subdomains = l.map Prod.fst ∧
        List.Forall₂ List.Perm s.volumes (l.map Prod.snd)) ∧
      FlaggedAs s.boundary s.surfaces m.bnd ∧
      ∀ (i : Nat) f d, s.surfaces[i]? = some f → s.boundary[i]? = some d →
        d.isInt = (d.isB && cellsAround m.cells f == 2) := by
  have hcl : ∀ c ∈ m.cells, c.2.length = 4 ∧ c.2.Nodup := fun c hc => ⟨(hm.cell c hc).2.1, (hm.cell c hc).2.2.1⟩
  have hedge : ∀ e, e ∈ (m.cells.map Prod.snd).flatMap tetEdges ↔ ∃ c ∈ m.cells, SubSimplex 2 e c.2 := by
    intro e
    rw [List.mem_flatMap]
    constructor
    · rintro ⟨p, hp, he⟩
      obtain ⟨c, hc, rfl⟩ := List.mem_map.1 hp
      exact ⟨c, hc, (mem_tetEdges c.2 e (hcl c hc).1 (hcl c hc).2).1 he⟩
    · rintro ⟨c, hc, he⟩
      exact ⟨c.2, List.mem_map_of_mem hc, (mem_tetEdges c.2 e (hcl c hc).1 (hcl c hc).2).2 he⟩
  have hsurf : ∀ e, e ∈ (m.cells.map Prod.snd).flatMap tetSurfaces ↔ ∃ c ∈ m.cells, SubSimplex 3 e c.2 := by
    intro e
    rw [List.mem_flatMap]
    constructor
    · rintro ⟨p, hp, he⟩
      obtain ⟨c, hc, rfl⟩ := List.mem_map.1 hp
      exact ⟨c, hc, (mem_tetSurfaces c.2 e (hcl c hc).1 (hcl c hc).2).1 he⟩
    · rintro ⟨c, hc, he⟩
      exact ⟨c.2, List.mem_map_of_mem hc, (mem_tetSurfaces c.2 e (hcl c hc).1 (hcl c hc).2).2 he⟩
  generalize hS : sortUniq ((m.cells.map Prod.snd).flatMap tetSurfaces) = S at *
  have hSs : S.Pairwise (· < ·) := hS ▸ sortUniq_sorted _
  have hSm : ∀ e, e ∈ S ↔ ∃ c ∈ m.cells, SubSimplex 3 e c.2 := fun e => by rw [← hS, mem_sortUniq]; exact hsurf e
  have hx : ∀ x ∈ m.bnd.map (fun x => (simplex x.2, x.1)), x.1 ∈ S := by
    intro x hx
    obtain ⟨f, hf, rfl⟩ := List.mem_map.1 hx
    obtain ⟨c, hc, hfc⟩ := hb f hf
    rw [hSm]
    refine ⟨c, hc, simplex_sorted f.2 (hm.face f hf).2.2.1, ?_, fun i hi => hfc i ((simplex_perm _).mem_iff.1 hi)⟩
    rw [(simplex_perm _).length_eq, (hm.face f hf).2.1]
  obtain ⟨hf1, hf2⟩ := flag_replicate S hSs _ hx
  have hf3 : (S.map fun f => descOf (((m.bnd.map fun x => (simplex x.2, x.1)).filter
      fun x => decide (x.1 = f)).getLast?.map Prod.snd)) = S.map fun f => descOf (listedNumber m.bnd f) := by
    refine List.map_congr_left fun f hf => ?_
    rw [listed_simplex m.bnd (fun x hx => (hm.face x hx).2.2.1) f ?_]
    obtain ⟨c, _, hc⟩ := (hSm f).1 hf
    exact hc.1
  obtain ⟨hV1, hV2⟩ := hs (m.cells.map fun x => (simplex x.2, x.1))
  generalize hV : srt (m.cells.map fun x => (simplex x.2, x.1)) = V at *
  have hVm : (V.map Prod.fst).Perm (m.cells.map fun c => simplex c.2) := by
    have := hV1.map Prod.fst
    rwa [List.map_map] at this
  have hmesh : ∀ c ∈ V.map Prod.fst, ∀ f ∈ tetFaces c, f ∈ S := by
    intro v hv f hf
    obtain ⟨c, hc, rfl⟩ := List.mem_map.1 (hVm.mem_iff.1 hv)
    have h4 : (simplex c.2).length = 4 := (simplex_perm _).length_eq.trans (hcl c hc).1
    have := (mem_tetSurfaces _ f h4 ((simplex_perm _).nodup_iff.2 (hcl c hc).2)).1 ((tetFaces_perm _).mem_iff.1 hf)
    rw [hSm]
    exact ⟨c, hc, this.1, this.2.1, fun i hi => (simplex_perm _).mem_iff.1 (this.2.2 i hi)⟩
  have hocc : ∀ f, occurrences (V.map Prod.fst) tetFaces f =
      if f.Pairwise (· < ·) ∧ f.length = 3 then cellsAround m.cells f else 0 := fun f => by
    rw [occurrences_perm hVm, occurrences_cells m.cells hcl]
  have hle : ∀ f, occurrences (V.map Prod.fst) tetFaces f ≤ 2 := by
    intro f
    rw [hocc]
    split
    · next h => exact h2 f h.2 (h.1.imp Nat.ne_of_lt)
    · omega
  obtain ⟨b, hb1, hb2, hb3⟩ := mark_ok ⟨V.map Prod.fst, S, tetFaces, S.map fun f => descOf (listedNumber m.bnd f)⟩
    ⟨(Lookup.strictSorted_iff_pairwise _).2 hSs, by simp⟩ hmesh hle
  simp only [List.length_map] at hb2
  have hload : loadNetgen3 srt cap (.file pad toks) = .ok (true,
      { points := m.points, nodes := mkNodes m.points.length,
        edges := sortUniq ((m.cells.map Prod.snd).flatMap tetEdges), surfaces := S, volumes := V.map Prod.fst,
        boundary := b, subdomains := V.map Prod.snd }) := by
    have hr : readRaw pad cap 3 5 4 toks = _ := readNetgen pad cap 3 4 3 m hm toks ht
    simp only [loadNetgen3, hr, Outcome.bind_ok, populate3, cells_corners hm, lines_num hm, vols_num hm, hS, hV, hf1, hf2, hf3, hb1,
      Bool.true_eq_false, if_false]
  have hdesc : ∀ (i : Nat) f d, S[i]? = some f → b[i]? = some d →
      d.isInt = (d.isB && cellsAround m.cells f == 2) ∧ d.id = (descOf (listedNumber m.bnd f)).id ∧
      d.tag = (descOf (listedNumber m.bnd f)).tag ∧ d.isB = (descOf (listedNumber m.bnd f)).isB := by
    intro i f d hi hd
    obtain ⟨hi1, rfl⟩ := List.getElem?_eq_some_iff.1 hi
    obtain ⟨hi2, rfl⟩ := List.getElem?_eq_some_iff.1 hd
    obtain ⟨h3, h4, h5, h6⟩ := hb3 i hi1 hi2 (by simpa using hi1)
    simp only [List.getElem_map] at h3 h4 h5 h6
    refine ⟨?_, h4, h5, h6⟩
    obtain ⟨c, hc, hsub⟩ := (hSm S[i]).1 (List.getElem_mem hi1)
    rw [h3, h6, hocc, if_pos ⟨hsub.1, hsub.2.1⟩]
    cases listedNumber m.bnd S[i] <;> simp [descOf, BDesc.mk2, BDesc.default]
  refine ⟨_, hload, ⟨rfl, by simp [mkNodes], fun i hi => by simp [mkNodes, hi]⟩,
    Collects.congr (collects_sortUniq _) hedge, ⟨hSs, hSm⟩, ?_, ?_, ?_, ?_, ?_, ?_, fun i f d hi hd => (hdesc i f d hi hd).1⟩
  · rw [List.pairwise_map]
    exact hV2.imp fun h => not_lt.1 h
  · intro v hv
    obtain ⟨c, hc, rfl⟩ := List.mem_map.1 (hVm.mem_iff.1 hv)
    exact simplex_sorted _ (hcl c hc).2
  · simpa using hVm.length_eq
  · simpa using hV1.length_eq
  · obtain ⟨l, hl1, hl2⟩ := perm_map_right hV1
    refine ⟨l, hl1, ?_, ?_⟩
    · simp only [hl2, List.map_map]; rfl
    · simp only [hl2, List.map_map]
      rw [List.forall₂_map_left_iff, List.forall₂_map_right_iff, List.forall₂_same]
      exact fun c _ => simplex_perm _
  · refine ⟨hb2, fun i f d hi hd => ?_⟩
    obtain ⟨_, h4, h5, h6⟩ := hdesc i f d hi hd
    rw [h4, h5, h6]
    cases listedNumber m.bnd f <;> simp [descOf, BDesc.mk2, BDesc.default]

/-- C137 (subdomains): when no two tetrahedra have the same corners, `domain_info` of every tetrahedron is the number
the file gives to it. -/
theorem c137_subdomain (srt : List (List Nat × Nat) → List (List Nat × Nat)) (hs : IsSort srt) (cap : Nat)
    (m : FileMesh K) (hm : FileOk cap 3 4 3 m) (pad : Bool) (toks : List (Tok K)) (ht : TextOf netgenLine toks m)
    (hb : ∀ f ∈ m.bnd, ∃ c ∈ m.cells, ∀ i ∈ f.2, i ∈ c.2)
    (h2 : ∀ f : List Nat, f.length = 3 → f.Nodup → cellsAround m.cells f ≤ 2)
    (hd : m.cells.Pairwise fun a b => ¬ a.2.Perm b.2) :
    ∃ s, loadNetgen3 srt cap (.file pad toks) = .ok (true, s) ∧
      ∀ c ∈ m.cells, ∃ v ∈ s.volumes, v.Perm c.2 ∧ domainInfo s s.volumes v = .ok c.1 := by
  obtain ⟨s, h1, _, _, _, hle, _, hl1, hl2, ⟨l, hlp, hsub, hv⟩, _⟩ := c137_load srt hs cap m hm pad toks ht hb h2
  refine ⟨s, h1, fun c hc => ?_⟩
  have hlen : s.volumes.length = l.length := by simpa using hv.length_eq
  have hat : ∀ (i : Nat) (h : i < l.length), (s.volumes[i]'(hlen ▸ h)).Perm l[i].2 := by
    intro i h
    have := (List.forall₂_iff_get.1 hv).2 i (hlen ▸ h) (by simpa using h)
    simpa using this
  have hdl : l.Pairwise fun a b => ¬ a.2.Perm b.2 :=
    (hlp.pairwise_iff fun {a b} h h' => h h'.symm).2 hd
  have hlt : s.volumes.Pairwise (· < ·) := by
    rw [List.pairwise_iff_getElem] at hle hdl ⊢
    intro i j hi hj hij
    refine lt_of_le_of_ne (hle i j hi hj hij) fun h => hdl i j (hlen ▸ hi) (hlen ▸ hj) hij ?_
    exact (hat i (hlen ▸ hi)).symm.trans (h ▸ hat j (hlen ▸ hj))
  obtain ⟨i, hi, rfl⟩ := List.getElem_of_mem (hlp.mem_iff.2 hc)
  refine ⟨s.volumes[i]'(hlen ▸ hi), List.getElem_mem _, hat i hi, ?_⟩
  unfold domainInfo
  rw [if_neg (by omega), lookup_of_get _ hlt _ i (List.getElem?_eq_getElem _)]
  simp [Outcome.bind_ok, Ident.Ident.mk', Ident.Ident.conv, hsub, hi]

/-- The two tetrahedra satisfy the hypotheses. -/
theorem exTets_two (f : List Nat) (_ : f.length = 3) (_ : f.Nodup) : cellsAround exTets.cells f ≤ 2 :=
  List.countP_le_length

example : ∃ s, loadNetgen3 (Sort.sortBy fun x y => decide (x.1 < y.1)) 100 (.file true exTetsText) = .ok (true, s) ∧
    ∀ c ∈ exTets.cells, ∃ v ∈ s.volumes, v.Perm c.2 ∧ domainInfo s s.volumes v = .ok c.1 :=
  c137_subdomain _ isSort_sortBy 100 exTets exTets_ok true exTetsText exTets_text (by decide) exTets_two (by decide)

example : ∃ s, loadNetgen3 (Sort.sortBy fun x y => decide (x.1 < y.1)) 100 (.file true exTetsText) = .ok (true, s) ∧
    s.volumes.length = 2 :=
  have ⟨s, h, _, _, _, _, _, hl, _⟩ :=
    c137_load _ isSort_sortBy 100 exTets exTets_ok true exTetsText exTets_text (by decide) exTets_two
  ⟨s, h, hl⟩

/-! ### C138: files that are not meshes -/

/-- C138 (partial): an empty file name is refused by all four loaders, a missing file by the loader of quadrangles. -/
theorem c138_refused_partial (srt : List (List Nat × Nat) → List (List Nat × Nat)) (cap : Nat) :
    loadNetgen2 cap (.noName : Source K) = .ok (false, .empty) ∧
    loadNetgen3 srt cap (.noName : Source K) = .ok (false, .empty) ∧
    loadQuad cap (.noName : Source K) = .ok (false, .empty) ∧ loadHex cap (.noName : Source K) = .ok (false, .empty) ∧
    loadQuad cap (.missing : Source K) = .ok (false, .empty) := ⟨rfl, rfl, rfl, rfl, rfl⟩

/-- C138 (partial): a boundary face that is not a face of the mesh is an exception in three-dimensional Netgen
files. -/
theorem c138_face_partial (srt : List (List Nat × Nat) → List (List Nat × Nat)) (cap : Nat) (m : FileMesh K)
    (hm : FileOk cap 3 4 3 m) (pad : Bool) (toks : List (Tok K)) (ht : TextOf netgenLine toks m)
    (hb : ¬ ∀ f ∈ m.bnd, ∃ c ∈ m.cells, ∀ i ∈ f.2, i ∈ c.2) :
    ∃ e, loadNetgen3 srt cap (.file pad toks) = .throws e := by
  have hcl : ∀ c ∈ m.cells, c.2.length = 4 ∧ c.2.Nodup := fun c hc => ⟨(hm.cell c hc).2.1, (hm.cell c hc).2.2.1⟩
  generalize hS : sortUniq ((m.cells.map Prod.snd).flatMap tetSurfaces) = S at *
  have hSs : S.Pairwise (· < ·) := hS ▸ sortUniq_sorted _
  have hx : ¬ ∀ x ∈ m.bnd.map (fun x => (simplex x.2, x.1)), x.1 ∈ S := by
    refine fun h => hb fun f hf => ?_
    have := h _ (List.mem_map_of_mem hf)
    rw [← hS, mem_sortUniq, List.mem_flatMap] at this
    obtain ⟨p, hp, he⟩ := this
    obtain ⟨c, hc, rfl⟩ := List.mem_map.1 hp
    have := (mem_tetSurfaces c.2 _ (hcl c hc).1 (hcl c hc).2).1 he
    exact ⟨c, hc, fun i hi => this.2.2 i ((simplex_perm _).mem_iff.2 hi)⟩
  have hf := (flag_fails S hSs _ (List.replicate S.length BDesc.default) (by simp) hx).1
  have hr : readRaw pad cap 3 5 4 toks = _ := readNetgen pad cap 3 4 3 m hm toks ht
  refine ⟨"Face not found", ?_⟩
  simp only [loadNetgen3, hr, Outcome.bind_ok, populate3, cells_corners hm, lines_num hm, hS, hf, if_true]
  rfl

/-- C138 (partial): a number of points that does not fit into `size_t`, or a negative one of small size, is an exception
of all four loaders. -/
theorem c138_overflow_partial (srt : List (List Nat × Nat) → List (List Nat × Nat)) (cap : Nat) (pad : Bool) (z : Int)
    (toks : List (Tok K)) (hc : cap < 9223372036854775808)
    (hz : 18446744073709551616 ≤ z.natAbs ∨ (-9223372036854775808 ≤ z ∧ z < 0)) :
    (loadNetgen2 cap (.file pad (.int z :: toks))).Throws ∧ (loadNetgen3 srt cap (.file pad (.int z :: toks))).Throws ∧
    (loadQuad cap (.file pad (.int z :: toks))).Throws ∧ (loadHex cap (.file pad (.int z :: toks))).Throws := by
  have hu : cap < ulong z := by
    unfold ulong
    split <;> omega
  have h : ∀ d a b, readRaw pad cap d a b (.int z :: toks) = .throws "length_error or bad_alloc" := fun d a b => by
    simp only [readRaw, readCount, readNat, Outcome.bind_ok, if_pos hu]
    rfl
  refine ⟨?_, ?_, ?_, ?_⟩
  · simp only [loadNetgen2, h]; trivial
  · simp only [loadNetgen3, h]; trivial
  · simp only [loadQuad, h]; trivial
  · simp only [loadHex, h]; trivial

example : (loadNetgen2 100 (.file true [.int (-1)] : Source ℤ)).Throws ∧
    (loadNetgen2 100 (.file true [.int 18446744073709551616] : Source ℤ)).Throws :=
  ⟨(c138_overflow_partial id 100 true _ [] (by decide) (.inr (by decide))).1,
   (c138_overflow_partial id 100 true _ [] (by decide) (.inl (by decide))).1⟩

/-- C138 (violated): a missing file is undefined behaviour for the other three loaders. -/
theorem c138_missing_violated (srt : List (List Nat × Nat) → List (List Nat × Nat)) (cap : Nat) :
    (loadNetgen2 cap (.missing : Source K)).IsUB ∧ (loadNetgen3 srt cap (.missing : Source K)).IsUB ∧
    (loadHex cap (.missing : Source K)).IsUB := ⟨trivial, trivial, trivial⟩

/-- C138 (violated): a two-dimensional Netgen file with a boundary edge that is not an edge of the mesh is reported as
loaded. There are no subdomain entries then, so asking for the subdomain of a cell is undefined behaviour. -/
theorem c138_edge_violated (cap : Nat) (m : FileMesh K) (hm : FileOk cap 2 3 2 m) (pad : Bool) (toks : List (Tok K))
    (ht : TextOf netgenLine toks m) (hb : ¬ ∀ f ∈ m.bnd, ∃ c ∈ m.cells, ∀ i ∈ f.2, i ∈ c.2) (hc : m.cells ≠ []) :
    ∃ s, loadNetgen2 cap (.file pad toks) = .ok (true, s) ∧ s.surfaces ≠ [] ∧
      ∀ c ∈ s.surfaces, (domainInfo s s.surfaces c).IsUB := by
  have hcl : ∀ c ∈ m.cells, c.2.length = 3 ∧ c.2.Nodup := fun c hc => ⟨(hm.cell c hc).2.1, (hm.cell c hc).2.2.1⟩
  generalize hS : sortUniq ((m.cells.map Prod.snd).flatMap triEdges) = S at *
  have hSs : S.Pairwise (· < ·) := hS ▸ sortUniq_sorted _
  have hx : ¬ ∀ x ∈ m.bnd.map (fun x => (simplex x.2, x.1)), x.1 ∈ S := by
    refine fun h => hb fun f hf => ?_
    have := h _ (List.mem_map_of_mem hf)
    rw [← hS, mem_sortUniq, List.mem_flatMap] at this
    obtain ⟨p, hp, he⟩ := this
    obtain ⟨c, hc, rfl⟩ := List.mem_map.1 hp
    have := (mem_triEdges c.2 _ (hcl c hc).1 (hcl c hc).2).1 he
    exact ⟨c, hc, fun i hi => this.2.2 i ((simplex_perm _).mem_iff.2 hi)⟩
  have hf := (flag_fails S hSs _ (List.replicate S.length BDesc.default) (by simp) hx).1
  have hr : readRaw pad cap 2 4 3 toks = _ := readNetgen pad cap 2 3 2 m hm toks ht
  have hload : loadNetgen2 cap (.file pad toks) =
      .ok (true, (populate2 (⟨m.points, m.cells.map netgenNums, m.bnd.map netgenNums⟩ : Raw K)).2) := by
    simp only [loadNetgen2, hr, Outcome.bind_ok]
  have hne : sortUniq ((m.cells.map Prod.snd).map simplex) ≠ [] := by
    obtain ⟨c, hc'⟩ := List.exists_mem_of_ne_nil _ hc
    exact List.ne_nil_of_mem ((mem_sortUniq _ _).2 (List.mem_map_of_mem (List.mem_map_of_mem hc')))
  have hpop : (populate2 (⟨m.points, m.cells.map netgenNums, m.bnd.map netgenNums⟩ : Raw K)).2.surfaces =
      sortUniq ((m.cells.map Prod.snd).map simplex) := by
    simp only [populate2, cells_corners hm]
  have hsub : (populate2 (⟨m.points, m.cells.map netgenNums, m.bnd.map netgenNums⟩ : Raw K)).2.subdomains = [] := by
    simp only [populate2, cells_corners hm, lines_num hm, hS, hf, Bool.false_eq_true, if_false]
  refine ⟨_, hload, hpop ▸ hne, fun c _ => ?_⟩
  unfold domainInfo
  rw [hsub, if_pos (by rw [hpop]; simpa using (List.length_pos_of_ne_nil hne).ne)]
  trivial

/-- C138 (violated): a file that ends after the number of points is accepted by all four loaders, as a mesh with that
many points at the origin and no cells. -/
theorem c138_truncated_violated (srt : List (List Nat × Nat) → List (List Nat × Nat)) (hs : IsSort srt) (cap n : Nat)
    (hc : cap < 2 ^ 64) (hn : n ≤ cap) :
    (∃ s : Storage K, loadNetgen2 cap (.file true [natTok n]) = .ok (true, s) ∧
      s.points = List.replicate n [0, 0] ∧ s.surfaces = []) ∧
    (∃ s : Storage K, loadNetgen3 srt cap (.file true [natTok n]) = .ok (true, s) ∧
      s.points = List.replicate n [0, 0, 0] ∧ s.volumes = []) ∧
    (∃ s : Storage K, loadQuad cap (.file true [natTok n]) = .ok (true, s) ∧
      s.points = List.replicate n [0, 0] ∧ s.surfaces = []) ∧
    (∃ s : Storage K, loadHex cap (.file true [natTok n]) = .ok (true, s) ∧
      s.points = List.replicate n [0, 0, 0] ∧ s.volumes = []) := by
  have h0 : srt [] = [] := List.Perm.eq_nil (hs []).1
  refine ⟨⟨(populate2 ⟨List.replicate n [0, 0], [], []⟩).2, ?_, rfl, rfl⟩,
    ⟨⟨List.replicate n [0, 0, 0], mkNodes n, [], [], [], [], []⟩, ?_, rfl, rfl⟩,
    ⟨(populateQuad ⟨List.replicate n [0, 0], [], []⟩).2, ?_, rfl, rfl⟩,
    ⟨(populateHex ⟨List.replicate n [0, 0, 0], [], []⟩).2, ?_, rfl, rfl⟩⟩
  · simp only [loadNetgen2, readRaw_truncated cap n hc hn, Outcome.bind_ok]
    rfl
  · simp only [loadNetgen3, readRaw_truncated cap n hc hn, Outcome.bind_ok, populate3, List.map_nil, h0, List.flatMap_nil,
      show sortUniq [] = [] from rfl]
    simp [flag, Neighbours.markInternal, Neighbours.countCells, Neighbours.markLoop]
  · simp only [loadQuad, readRaw_truncated cap n hc hn, Outcome.bind_ok]
    rfl
  · simp only [loadHex, readRaw_truncated cap n hc hn, Outcome.bind_ok]
    rfl

/-- C138 (violated): corner number zero of a Netgen file is accepted and refers to a point far outside the list of
points. -/
theorem c138_zero_violated : ∃ s : Storage ℤ,
    loadNetgen2 100 (.file true ([3, 0, 0, 1, 0, 0, 1, 1, 1, 0, 1, 2, 0].map Tok.int)) = .ok (true, s) ∧
      s.surfaces = [[0, 1, 18446744073709551615]] ∧ s.points.length = 3 ∧
      ∀ c ∈ s.surfaces, (pointsOf s c).IsUB := by
  refine ⟨⟨[[0, 0], [1, 0], [0, 1]], [[0], [1], [2]],
    [[0, 1], [0, 18446744073709551615], [1, 18446744073709551615]], [[0, 1, 18446744073709551615]], [],
    List.replicate 3 .default, [0]⟩, by decide +kernel, rfl, rfl, by decide +kernel⟩

/-- C138 (violated): three tetrahedra with a common face are undefined behaviour, not an error. -/
theorem c138_threecells_violated (srt : List (List Nat × Nat) → List (List Nat × Nat)) (hs : IsSort srt) (cap : Nat)
    (m : FileMesh K) (hm : FileOk cap 3 4 3 m) (pad : Bool) (toks : List (Tok K)) (ht : TextOf netgenLine toks m)
    (hb : ∀ f ∈ m.bnd, ∃ c ∈ m.cells, ∀ i ∈ f.2, i ∈ c.2)
    (h2 : ∃ f : List Nat, f.length = 3 ∧ f.Nodup ∧ 2 < cellsAround m.cells f) :
    (loadNetgen3 srt cap (.file pad toks)).IsUB := by
  have hcl : ∀ c ∈ m.cells, c.2.length = 4 ∧ c.2.Nodup := fun c hc => ⟨(hm.cell c hc).2.1, (hm.cell c hc).2.2.1⟩
  have hsurf : ∀ e, e ∈ (m.cells.map Prod.snd).flatMap tetSurfaces ↔ ∃ c ∈ m.cells, SubSimplex 3 e c.2 := by
    intro e
    rw [List.mem_flatMap]
    constructor
    · rintro ⟨p, hp, he⟩
      obtain ⟨c, hc, rfl⟩ := List.mem_map.1 hp
      exact ⟨c, hc, (mem_tetSurfaces c.2 e (hcl c hc).1 (hcl c hc).2).1 he⟩
    · rintro ⟨c, hc, he⟩
      exact ⟨c.2, List.mem_map_of_mem hc, (mem_tetSurfaces c.2 e (hcl c hc).1 (hcl c hc).2).2 he⟩
  generalize hS : sortUniq ((m.cells.map Prod.snd).flatMap tetSurfaces) = S at *
  have hSs : S.Pairwise (· < ·) := hS ▸ sortUniq_sorted _
  have hSm : ∀ e, e ∈ S ↔ ∃ c ∈ m.cells, SubSimplex 3 e c.2 := fun e => by rw [← hS, mem_sortUniq]; exact hsurf e
  have hx : ∀ x ∈ m.bnd.map (fun x => (simplex x.2, x.1)), x.1 ∈ S := by
    intro x hx
    obtain ⟨f, hf, rfl⟩ := List.mem_map.1 hx
    obtain ⟨c, hc, hfc⟩ := hb f hf
    rw [hSm]
    refine ⟨c, hc, simplex_sorted f.2 (hm.face f hf).2.2.1, ?_, fun i hi => hfc i ((simplex_perm _).mem_iff.1 hi)⟩
    rw [(simplex_perm _).length_eq, (hm.face f hf).2.1]
  obtain ⟨hf1, hf2⟩ := flag_replicate S hSs _ hx
  obtain ⟨hV1, hV2⟩ := hs (m.cells.map fun x => (simplex x.2, x.1))
  generalize hV : srt (m.cells.map fun x => (simplex x.2, x.1)) = V at *
  have hVm : (V.map Prod.fst).Perm (m.cells.map fun c => simplex c.2) := by
    have := hV1.map Prod.fst
    rwa [List.map_map] at this
  have hmesh : ∀ c ∈ V.map Prod.fst, ∀ f ∈ tetFaces c, f ∈ S := by
    intro v hv f hf
    obtain ⟨c, hc, rfl⟩ := List.mem_map.1 (hVm.mem_iff.1 hv)
    have h4 : (simplex c.2).length = 4 := (simplex_perm _).length_eq.trans (hcl c hc).1
    have := (mem_tetSurfaces _ f h4 ((simplex_perm _).nodup_iff.2 (hcl c hc).2)).1 ((tetFaces_perm _).mem_iff.1 hf)
    rw [hSm]
    exact ⟨c, hc, this.1, this.2.1, fun i hi => (simplex_perm _).mem_iff.1 (this.2.2 i hi)⟩
  have hocc : ∀ f, occurrences (V.map Prod.fst) tetFaces f =
      if f.Pairwise (· < ·) ∧ f.length = 3 then cellsAround m.cells f else 0 := fun f => by
    rw [occurrences_perm hVm, occurrences_cells m.cells hcl]
  have he := mark_ub ⟨V.map Prod.fst, S, tetFaces, (flag S (m.bnd.map fun x => (simplex x.2, x.1))
      (List.replicate S.length BDesc.default)).2⟩
    ⟨(Lookup.strictSorted_iff_pairwise _).2 hSs, by rw [hf2]; simp⟩ hmesh (by
      intro h
      obtain ⟨f, h3, hn, hf⟩ := h2
      have := h (simplex f)
      rw [hocc, if_pos ⟨simplex_sorted _ hn, (simplex_perm _).length_eq.trans h3⟩] at this
      have hsame : cellsAround m.cells (simplex f) = cellsAround m.cells f := by
        unfold cellsAround
        congr 1
        funext c
        simp only [(simplex_perm f).mem_iff]
      omega)
  have hr : readRaw pad cap 3 5 4 toks = _ := readNetgen pad cap 3 4 3 m hm toks ht
  simp only [loadNetgen3, hr, Outcome.bind_ok, populate3, cells_corners hm, lines_num hm, vols_num hm, hS, hV, hf1,
    Bool.true_eq_false, if_false]
  revert he
  cases Neighbours.markInternal ⟨V.map Prod.fst, S, tetFaces, (flag S (m.bnd.map fun x => (simplex x.2, x.1))
      (List.replicate S.length BDesc.default)).2⟩ <;> simp [Outcome.IsUB, Outcome.bind]

/-- A square with a boundary edge that is none of its triangle's. -/
def exWrong2 : FileMesh ℤ :=
  { points := [[0, 0], [1, 0], [0, 1], [1, 1]], cells := [(1, [0, 1, 2])], bnd := [(5, [1, 3])] }

example : ∃ s, loadNetgen2 (K := ℤ) 100 (.file true (natTok 4 :: (exWrong2.points.flatten.map Tok.int ++
      natTok 1 :: (exWrong2.cells.flatMap netgenLine ++ natTok 1 :: (exWrong2.bnd.flatMap netgenLine ++ []))))) =
      .ok (true, s) ∧ s.surfaces ≠ [] ∧ ∀ c ∈ s.surfaces, (domainInfo s s.surfaces c).IsUB :=
  c138_edge_violated 100 exWrong2 (by constructor <;> decide) true _ ⟨_, [], by
    simp only [exWrong2, List.flatten_cons, List.flatten_nil, List.append_nil, List.cons_append, List.nil_append,
      List.map_cons, List.map_nil]
    repeat' first | exact List.Forall₂.nil | refine List.Forall₂.cons ?_ ?_
    all_goals simp [CoordTok], rfl⟩ (by decide) (by decide)

/-- A tetrahedron with a boundary face that is none of its own. -/
def exWrong3 : FileMesh ℤ :=
  { points := exTets.points, cells := [(1, [0, 1, 2, 3])], bnd := [(5, [1, 3, 4])] }

example : ∃ e, loadNetgen3 (K := ℤ) id 100 (.file true (natTok 5 :: (exWrong3.points.flatten.map Tok.int ++
      natTok 1 :: (exWrong3.cells.flatMap netgenLine ++ natTok 1 :: (exWrong3.bnd.flatMap netgenLine ++ []))))) =
      .throws e :=
  c138_face_partial _ 100 exWrong3 (by constructor <;> decide) true _ ⟨_, [], by
    simp only [exWrong3, exTets, List.flatten_cons, List.flatten_nil, List.append_nil, List.cons_append,
      List.nil_append, List.map_cons, List.map_nil]
    repeat' first | exact List.Forall₂.nil | refine List.Forall₂.cons ?_ ?_
    all_goals simp [CoordTok], rfl⟩ (by decide)

/-- Three tetrahedra around one face. -/
def exThree : FileMesh ℤ :=
  { points := exTets.points ++ [[2, 2, 2]], cells := [(1, [0, 1, 2, 3]), (1, [1, 2, 3, 4]), (1, [1, 2, 3, 5])], bnd := [] }

example : (loadNetgen3 (K := ℤ) (Sort.sortBy fun x y => decide (x.1 < y.1)) 100 (.file true (natTok 6 ::
      (exThree.points.flatten.map Tok.int ++ natTok 3 :: (exThree.cells.flatMap netgenLine ++
        natTok 0 :: (exThree.bnd.flatMap netgenLine ++ [])))))).IsUB :=
  c138_threecells_violated _ isSort_sortBy 100 exThree (by constructor <;> decide) true _ ⟨_, [], by
    simp only [exThree, exTets, List.flatten_cons, List.flatten_nil, List.append_nil, List.cons_append,
      List.nil_append, List.map_cons, List.map_nil]
    repeat' first | exact List.Forall₂.nil | refine List.Forall₂.cons ?_ ?_
    all_goals simp [CoordTok], rfl⟩ (by decide) ⟨[1, 2, 3], by decide⟩

/-! ### C139: Cartesian files -/

/-- Two squares side by side. -/
def exQuads : FileMesh ℤ :=
  { points := [[0, 0], [1, 0], [2, 0], [0, 1], [1, 1], [2, 1]]
    cells := [(0, [1, 2, 4, 5]), (0, [0, 1, 3, 4])]
    bnd := [(0, [0, 1]), (0, [2, 5])] }

/-- Its text. -/
def exQuadsText : List (Tok ℤ) :=
  natTok 6 :: (exQuads.points.flatten.map Tok.int ++ natTok 2 :: (exQuads.cells.flatMap cartesianLine ++
    natTok 2 :: (exQuads.bnd.flatMap cartesianLine ++ [])))

theorem exQuads_text : TextOf cartesianLine exQuadsText exQuads :=
  ⟨exQuads.points.flatten.map Tok.int, [], by
    simp only [exQuads, List.flatten_cons, List.flatten_nil, List.append_nil, List.cons_append, List.nil_append,
      List.map_cons, List.map_nil]
    repeat' first | exact List.Forall₂.nil | refine List.Forall₂.cons ?_ ?_
    all_goals simp [CoordTok], rfl⟩

theorem exQuads_ok : FileOk 100 2 4 2 exQuads := by
  constructor <;> decide

/-- C139 (quadrangles): a file whose boundary edges are edges of its quadrangles in the direction of increasing corner
index is read. Points and quadrangles are those of the file, the edges those of the quadrangles, each once and in
increasing order; an edge is a boundary edge exactly if the file lists it; all faces of a cell are found. -/
theorem c139_quad_partial (cap : Nat) (m : FileMesh K) (hm : FileOk cap 2 4 2 m) (pad : Bool) (toks : List (Tok K))
    (ht : TextOf cartesianLine toks m) (hb : ∀ f ∈ m.bnd, ∃ c ∈ m.cells, EdgeOf 2 c.2 f.2) :
    ∃ s, loadQuad cap (.file pad toks) = .ok (true, s) ∧ PointsAs s m ∧
      Collects s.edges (fun e => ∃ c ∈ m.cells, EdgeOf 2 c.2 e) ∧
      Collects s.surfaces (fun t => ∃ c ∈ m.cells, c.2 = t) ∧ s.volumes = [] ∧
      s.boundary.length = s.edges.length ∧
      (∀ (i : Nat) e d, s.edges[i]? = some e → s.boundary[i]? = some d →
        (d.isB = true ↔ ∃ f ∈ m.bnd, f.2 = e) ∧ d.id = 0 ∧ d.isInt = false) ∧
      ∀ c ∈ m.cells, ∀ f ∈ quadFaces c.2, ∃ i, Lookup.lookup s.edges f = .ok (Ident.Ident.mk' i) ∧
        s.edges[i]? = some f := by
  have hedge : ∀ e, e ∈ (m.cells.map Prod.snd).flatMap quadEdges ↔ ∃ c ∈ m.cells, EdgeOf 2 c.2 e := by
    intro e
    rw [List.mem_flatMap]
    constructor
    · rintro ⟨p, hp, he⟩
      obtain ⟨c, hc, rfl⟩ := List.mem_map.1 hp
      exact ⟨c, hc, (mem_quadEdges c.2 e).1 he⟩
    · rintro ⟨c, hc, he⟩
      exact ⟨c.2, List.mem_map_of_mem hc, (mem_quadEdges c.2 e).2 he⟩
  have hr := readCartesian pad cap 2 4 2 m hm toks ht
  have hload : loadQuad cap (.file pad toks) =
      .ok (true, (populateQuad (⟨m.points, m.cells.map Prod.snd, m.bnd.map Prod.snd⟩ : Raw K)).2) := by
    simp only [loadQuad, hr, Outcome.bind_ok]
  have hE := Collects.congr (collects_sortUniq ((m.cells.map Prod.snd).flatMap quadEdges)) hedge
  have hflag := flag_zero _ hE.1 (m.bnd.map Prod.snd) (by
    intro f hf
    obtain ⟨x, hx, rfl⟩ := List.mem_map.1 hf
    exact (hE.2 _).2 (hb x hx))
  refine ⟨_, hload, ⟨rfl, by simp [populateQuad, mkNodes], fun i hi => by simp [populateQuad, mkNodes, hi]⟩, hE,
    Collects.congr (collects_sortUniq _) ?_, rfl, ?_, ?_, ?_⟩
  · intro e
    simp [eq_comm]
  · simp only [populateQuad, hflag, List.length_map]
  · intro i e d hi hd
    simp only [populateQuad] at hi hd
    rw [hflag, List.getElem?_map, hi, Option.map_some, Option.some.injEq] at hd
    subst hd
    by_cases he : e ∈ m.bnd.map Prod.snd
    · rw [if_pos he]
      exact ⟨⟨fun _ => by simpa using he, fun _ => rfl⟩, rfl, rfl⟩
    · rw [if_neg he]
      refine ⟨⟨fun h => by simp [BDesc.default] at h, fun h => absurd ?_ he⟩, rfl, rfl⟩
      simpa using h
  · intro c hc f hf
    have hmem : f ∈ (populateQuad (⟨m.points, m.cells.map Prod.snd, m.bnd.map Prod.snd⟩ : Raw K)).2.edges :=
      (hE.2 f).2 ⟨c, hc, (mem_quadEdges c.2 f).1 hf⟩
    obtain ⟨i, hi, hfi⟩ := List.getElem_of_mem hmem
    exact ⟨i, lookup_of_get _ hE.1 _ i (List.getElem?_eq_some_iff.2 ⟨hi, hfi⟩), List.getElem?_eq_some_iff.2 ⟨hi, hfi⟩⟩

example : ∃ s, loadQuad 100 (.file true exQuadsText) = .ok (true, s) ∧ PointsAs s exQuads :=
  have ⟨s, h, hp, _⟩ := c139_quad_partial 100 exQuads exQuads_ok true exQuadsText exQuads_text (by
    intro f hf
    simp only [exQuads, List.mem_cons, List.not_mem_nil, or_false] at hf
    rcases hf with rfl | rfl
    · exact ⟨(0, [0, 1, 3, 4]), by decide, 0, 1, 0, by decide, by decide, by decide, rfl, rfl⟩
    · exact ⟨(0, [1, 2, 4, 5]), by decide, 1, 3, 1, by decide, by decide, by decide, rfl, rfl⟩)
  ⟨s, h, hp⟩

/-- Two cubes on top of each other in the direction of the first coordinate. -/
def exHexes : FileMesh ℤ :=
  { points := [[0, 0, 0], [1, 0, 0], [2, 0, 0], [0, 1, 0], [1, 1, 0], [2, 1, 0],
               [0, 0, 1], [1, 0, 1], [2, 0, 1], [0, 1, 1], [1, 1, 1], [2, 1, 1]]
    cells := [(0, [1, 2, 4, 5, 7, 8, 10, 11]), (0, [0, 1, 3, 4, 6, 7, 9, 10])]
    bnd := [(0, [0, 3, 9, 6])] }

/-- Its text. -/
def exHexesText : List (Tok ℤ) :=
  natTok 12 :: (exHexes.points.flatten.map Tok.int ++ natTok 2 :: (exHexes.cells.flatMap cartesianLine ++
    natTok 1 :: (exHexes.bnd.flatMap cartesianLine ++ [])))

theorem exHexes_text : TextOf cartesianLine exHexesText exHexes :=
  ⟨exHexes.points.flatten.map Tok.int, [], by
    simp only [exHexes, List.flatten_cons, List.flatten_nil, List.append_nil, List.cons_append, List.nil_append,
      List.map_cons, List.map_nil]
    repeat' first | exact List.Forall₂.nil | refine List.Forall₂.cons ?_ ?_
    all_goals simp [CoordTok], rfl⟩

theorem exHexes_ok : FileOk 100 3 8 4 exHexes := by
  constructor <;> decide

/-- C139 (hexahedra): every file with hexahedra is read, whatever its boundary faces are. Points and volumes are those
of the file, the latter in increasing order; the edges are those of the hexahedra; each face runs around a side of a
hexahedron, and each side has a face. A face listed in the file is a boundary face if all listed faces are faces of
the mesh, and all faces of a cell are found. -/
theorem c139_hex_partial (cap : Nat) (m : FileMesh K) (hm : FileOk cap 3 8 4 m) (pad : Bool) (toks : List (Tok K))
    (ht : TextOf cartesianLine toks m) :
    ∃ s, loadHex cap (.file pad toks) = .ok (true, s) ∧ PointsAs s m ∧
      Collects s.edges (fun e => ∃ c ∈ m.cells, EdgeOf 3 c.2 e) ∧
      s.surfaces.Pairwise (· < ·) ∧ (∀ f ∈ s.surfaces, ∃ c ∈ m.cells, ∃ k b, k < 3 ∧ AroundSide c.2 k b f) ∧
      (∀ c ∈ m.cells, ∀ k, k < 3 → ∀ b, ∃ f ∈ s.surfaces, AroundSide c.2 k b f) ∧
      s.volumes.Pairwise (· ≤ ·) ∧ s.volumes.Perm (m.cells.map Prod.snd) ∧
      s.boundary.length = s.surfaces.length ∧
      ((∀ f ∈ m.bnd, f.2 ∈ s.surfaces) → ∀ (i : Nat) f d, s.surfaces[i]? = some f → s.boundary[i]? = some d →
        (d.isB = true ↔ ∃ x ∈ m.bnd, x.2 = f) ∧ d.id = 0 ∧ d.isInt = false) ∧
      ∀ c ∈ m.cells, ∀ f ∈ hexFaces c.2, ∃ i, Lookup.lookup s.surfaces f = .ok (Ident.Ident.mk' i) ∧
        s.surfaces[i]? = some f := by
  have hedge : ∀ e, e ∈ (m.cells.map Prod.snd).flatMap hexEdges ↔ ∃ c ∈ m.cells, EdgeOf 3 c.2 e := by
    intro e
    rw [List.mem_flatMap]
    constructor
    · rintro ⟨p, hp, he⟩
      obtain ⟨c, hc, rfl⟩ := List.mem_map.1 hp
      exact ⟨c, hc, (mem_hexEdges c.2 e).1 he⟩
    · rintro ⟨c, hc, he⟩
      exact ⟨c.2, List.mem_map_of_mem hc, (mem_hexEdges c.2 e).2 he⟩
  have hr := readCartesian pad cap 3 8 4 m hm toks ht
  have hload : loadHex cap (.file pad toks) =
      .ok (true, (populateHex (⟨m.points, m.cells.map Prod.snd, m.bnd.map Prod.snd⟩ : Raw K)).2) := by
    simp only [loadHex, hr, Outcome.bind_ok]
  have hS := collects_sortUniq ((m.cells.map Prod.snd).flatMap hexSurfaces)
  have hSm : ∀ c ∈ m.cells, ∀ f ∈ hexSurfaces c.2, f ∈ sortUniq ((m.cells.map Prod.snd).flatMap hexSurfaces) :=
    fun c hc f hf => (hS.2 f).2 (List.mem_flatMap.2 ⟨c.2, List.mem_map_of_mem hc, hf⟩)
  refine ⟨_, hload, ⟨rfl, by simp [populateHex, mkNodes], fun i hi => by simp [populateHex, mkNodes, hi]⟩,
    Collects.congr (collects_sortUniq _) hedge, hS.1, ?_, ?_, sortBy_lists_le _, Sort.sortBy_perm _ _, ?_, ?_, ?_⟩
  · intro f hf
    obtain ⟨p, hp, hfp⟩ := List.mem_flatMap.1 ((hS.2 f).1 hf)
    obtain ⟨c, hc, rfl⟩ := List.mem_map.1 hp
    exact ⟨c, hc, hexSurfaces_around c.2 f hfp⟩
  · intro c hc k hk b
    obtain ⟨f, hf, ha⟩ := hexSurfaces_all c.2 k hk b
    exact ⟨f, hSm c hc f hf, ha⟩
  · simp only [populateHex]
    by_cases hx : ∀ x ∈ (m.bnd.map Prod.snd).map fun l => (l, 0),
        x.1 ∈ sortUniq ((m.cells.map Prod.snd).flatMap hexSurfaces)
    · rw [(flag_replicate _ hS.1 _ hx).2, List.length_map]
    · exact (flag_fails _ hS.1 _ _ (by simp) hx).2
  · intro hb i e d hi hd
    have hflag := flag_zero _ hS.1 (m.bnd.map Prod.snd) (by
      intro f hf
      obtain ⟨x, hx, rfl⟩ := List.mem_map.1 hf
      exact hb x hx)
    simp only [populateHex] at hi hd
    rw [hflag, List.getElem?_map, hi, Option.map_some, Option.some.injEq] at hd
    subst hd
    by_cases he : e ∈ m.bnd.map Prod.snd
    · rw [if_pos he]
      exact ⟨⟨fun _ => by simpa using he, fun _ => rfl⟩, rfl, rfl⟩
    · rw [if_neg he]
      refine ⟨⟨fun h => by simp [BDesc.default] at h, fun h => absurd ?_ he⟩, rfl, rfl⟩
      simpa using h
  · intro c hc f hf
    obtain ⟨i, hi, hfi⟩ := List.getElem_of_mem (hSm c hc f hf)
    exact ⟨i, lookup_of_get _ hS.1 _ i (List.getElem?_eq_some_iff.2 ⟨hi, hfi⟩), List.getElem?_eq_some_iff.2 ⟨hi, hfi⟩⟩

example : ∃ s, loadHex 100 (.file true exHexesText) = .ok (true, s) ∧ s.surfaces.length = 11 ∧
    s.volumes = [[0, 1, 3, 4, 6, 7, 9, 10], [1, 2, 4, 5, 7, 8, 10, 11]] :=
  ⟨_, by rfl, by decide +kernel, by decide +kernel⟩

/-- C139 (shared faces): hexahedra whose opposite sides have the same corners in the same order share one face. -/
theorem c139_shared (cap : Nat) (m : FileMesh K) (hm : FileOk cap 3 8 4 m) (pad : Bool) (toks : List (Tok K))
    (ht : TextOf cartesianLine toks m) (c : Nat × List Nat) (hc : c ∈ m.cells) (c' : Nat × List Nat)
    (k : Nat) (hk : k < 3) (h : sideCorners c.2 k true = sideCorners c'.2 k false) :
    ∃ s, loadHex cap (.file pad toks) = .ok (true, s) ∧
      ∃ f ∈ s.surfaces, AroundSide c.2 k true f ∧ AroundSide c'.2 k false f ∧ f ∈ hexFaces c.2 ∧ f ∈ hexFaces c'.2 := by
  have hr := readCartesian pad cap 3 8 4 m hm toks ht
  have hload : loadHex cap (.file pad toks) =
      .ok (true, (populateHex (⟨m.points, m.cells.map Prod.snd, m.bnd.map Prod.snd⟩ : Raw K)).2) := by
    simp only [loadHex, hr, Outcome.bind_ok]
  obtain ⟨f, h1, h2, h3, h4⟩ := hexSurfaces_shared c.2 c'.2 k hk h
  exact ⟨_, hload, f, (mem_sortUniq _ _).2 (List.mem_flatMap.2 ⟨c.2, List.mem_map_of_mem hc, h3⟩), h1, h2, h3, h4⟩

example : sideCorners [0, 1, 3, 4, 6, 7, 9, 10] 0 true = sideCorners [1, 2, 4, 5, 7, 8, 10, 11] 0 false := by decide

/-- C139 (violated): no subdomain entries are made, so asking for the subdomain of a cell of a loaded mesh is undefined
behaviour. -/
theorem c139_domain_violated (cap : Nat) (m : FileMesh K) (hne : m.cells ≠ []) (pad : Bool) (toks : List (Tok K))
    (ht : TextOf cartesianLine toks m) :
    (FileOk cap 2 4 2 m → ∃ s, loadQuad cap (.file pad toks) = .ok (true, s) ∧
      ∀ c, (domainInfo s s.surfaces c).IsUB) ∧
    (FileOk cap 3 8 4 m → ∃ s, loadHex cap (.file pad toks) = .ok (true, s) ∧
      ∀ c, (domainInfo s s.volumes c).IsUB) := by
  obtain ⟨c₀, hc₀⟩ := List.exists_mem_of_ne_nil _ hne
  constructor
  · intro hm
    have hr := readCartesian pad cap 2 4 2 m hm toks ht
    have hload : loadQuad cap (.file pad toks) =
        .ok (true, (populateQuad (⟨m.points, m.cells.map Prod.snd, m.bnd.map Prod.snd⟩ : Raw K)).2) := by
      simp only [loadQuad, hr, Outcome.bind_ok]
    refine ⟨_, hload, fun c => ?_⟩
    have : 0 < (sortUniq (m.cells.map Prod.snd)).length :=
      List.length_pos_of_mem ((mem_sortUniq _ _).2 (List.mem_map_of_mem hc₀))
    unfold domainInfo
    rw [if_pos (by simp only [populateQuad, List.length_nil]; omega)]
    trivial
  · intro hm
    have hr := readCartesian pad cap 3 8 4 m hm toks ht
    have hload : loadHex cap (.file pad toks) =
        .ok (true, (populateHex (⟨m.points, m.cells.map Prod.snd, m.bnd.map Prod.snd⟩ : Raw K)).2) := by
      simp only [loadHex, hr, Outcome.bind_ok]
    refine ⟨_, hload, fun c => ?_⟩
    have : 0 < (Sort.sortBy (fun x y => decide (x < y)) (m.cells.map Prod.snd)).length := by
      rw [(Sort.sortBy_perm _ _).length_eq, List.length_map]
      exact List.length_pos_of_ne_nil hne
    unfold domainInfo
    rw [if_pos (by simp only [populateHex, List.length_nil]; omega)]
    trivial

/-- C139 (violated): a boundary edge written in the other direction is not recognised; the mesh is reported as loaded
without it. -/
theorem c139_orientation_violated : ∃ (m : FileMesh ℤ) (s : Storage ℤ), FileOk 100 2 4 2 m ∧
    TextOf cartesianLine ([4, 0, 0, 1, 0, 0, 1, 1, 1, 1, 0, 1, 2, 3, 1, 1, 0].map Tok.int) m ∧
    (∃ f ∈ m.bnd, ∃ c ∈ m.cells, EdgeOf 2 c.2 f.2.reverse) ∧
    loadQuad 100 (.file true ([4, 0, 0, 1, 0, 0, 1, 1, 1, 1, 0, 1, 2, 3, 1, 1, 0].map Tok.int)) = .ok (true, s) ∧
    [0, 1] ∈ s.edges ∧ ∀ d ∈ s.boundary, d.isB = false := by
  refine ⟨⟨[[0, 0], [1, 0], [0, 1], [1, 1]], [(0, [0, 1, 2, 3])], [(0, [1, 0])]⟩,
    ⟨[[0, 0], [1, 0], [0, 1], [1, 1]], [[0], [1], [2], [3]], [[0, 1], [0, 2], [1, 3], [2, 3]], [[0, 1, 2, 3]], [],
      List.replicate 4 .default, []⟩, by constructor <;> decide, ⟨[0, 0, 1, 0, 0, 1, 1, 1].map Tok.int, [], ?_, rfl⟩,
    ⟨(0, [1, 0]), by decide, (0, [0, 1, 2, 3]), by decide, 0, 1, 0, by decide, by decide, by decide, rfl, rfl⟩,
    by decide +kernel, by decide, by decide⟩
  simp only [List.flatten_cons, List.flatten_nil, List.append_nil, List.cons_append, List.nil_append, List.map_cons,
    List.map_nil]
  repeat' first | exact List.Forall₂.nil | refine List.Forall₂.cons ?_ ?_
  all_goals simp [CoordTok]

end Verif.Props.MeshFile
