import Verif.Lemmas.Gmsh
/-! C157, C158: triangles and tetrahedra generated by GMSH. -/
namespace Verif.Props.Gmsh
open Verif.Gmsh Verif.Spec.Gmsh Verif.MeshTopo
open Verif.Spec (SubSimplex Collects)
variable {K : Type}

/-- The sort used in examples. -/
def srt : List (List Nat × Nat × Nat) → List (List Nat × Nat × Nat) := Sort.sortBy fun x y => decide (x.1 < y.1)

/-- Three triangles in two regions, tags 7 and 9; the edge between the regions and one at the outside are patches. -/
def exTri : Contents ℤ :=
  { nodes := [(10, [0, 0, 0]), (3, [1, 0, 0]), (5, [0, 1, 0]), (4, [1, 1, 0]), (8, [2, 1, 0])]
    regions := [(7, [[[10, 3, 5], [4, 5, 3]]]), (9, [[[3, 8, 4]]])]
    patches := [(21, [[3, 10]]), (22, [[4, 3]])] }

/-- What GMSH returns for it. -/
def exTriModel : Model ℤ :=
  { nodeTags := [10, 3, 5, 4, 8]
    coords := [0, 0, 0, 1, 0, 0, 0, 1, 0, 1, 1, 0, 2, 1, 0]
    regions := [⟨7, [⟨2, [100, 101], [10, 3, 5, 4, 5, 3]⟩]⟩, ⟨9, [⟨2, [102], [3, 8, 4]⟩]⟩]
    patches := [⟨21, [⟨[3, 10], [], []⟩]⟩, ⟨22, [⟨[4, 3], [], []⟩]⟩] }

theorem exTri_returns : Returns Sides.edges exTriModel exTri :=
  ⟨rfl, rfl,
    .cons ⟨rfl, .cons ⟨rfl, rfl⟩ .nil⟩ (.cons ⟨rfl, .cons ⟨rfl, rfl⟩ .nil⟩ .nil),
    .cons ⟨rfl, _, rfl, rfl⟩ (.cons ⟨rfl, _, rfl, rfl⟩ .nil)⟩

instance (m : Contents ℤ) (n : Nat) (e : List Nat) : Decidable (Corners m n e) := by unfold Corners; infer_instance

theorem exTri_proper : Proper 3 2 exTri := by constructor <;> decide

/-- The mesh made of it. -/
def exTriMesh : Loaded ℤ :=
  { points := [[0, 0], [1, 0], [0, 1], [1, 1], [2, 1]]
    nodes := [[0], [1], [2], [3], [4]]
    edges := [[0, 1], [0, 2], [1, 2], [1, 3], [1, 4], [2, 3], [3, 4]]
    surfaces := [[0, 1, 2], [1, 2, 3], [1, 3, 4]]
    volumes := []
    boundary := [⟨0, 21, true, false⟩, .default, .default, ⟨1, 22, true, true⟩, .default, .default, .default]
    subdomains := [(0, 7), (1, 7), (0, 9)] }

theorem exTri_load : loadTri srt exTriModel = .ok exTriMesh := by decide +kernel

/-! ### C157: triangles -/

/-- C157 (what is stored): for a mesh of triangles all of whose sides belong to triangles, with at most two triangles at
an edge, the points are the nodes with their first two coordinates, in the same order; the edges are the pairs of
corners of the triangles, each once and in increasing order; the cells are the triangles, with the tags of their regions;
an edge is a boundary edge exactly if a patch has it, with number and tag of the last such patch, and is internal if
moreover two triangles share it. -/
theorem c157_load_partial (srt : List (List Nat × Nat × Nat) → List (List Nat × Nat × Nat)) (hs : IsSort srt)
    (g : Model K) (m : Contents K) (hr : Returns Sides.edges g m) (hp : Proper 3 2 m)
    (hb : ∀ f ∈ m.sides, ∃ c ∈ m.cells, ∀ i ∈ f.2, i ∈ c.2)
    (h2 : ∀ f : List Nat, f.length = 2 → f.Nodup → around m.cells f ≤ 2) :
    ∃ s, loadTri srt g = .ok s ∧ PointsAs 2 m s.points s.nodes ∧
      Collects s.edges (fun e => ∃ c ∈ m.cells, SubSimplex 2 e c.2) ∧ FacesAs m s.edges s.boundary ∧
      CellsAs m s.surfaces (s.subdomains.map Prod.snd) ∧ s.volumes = [] := by
  obtain ⟨c, h1, _, h3, h4, h5, _⟩ := core_ok srt hs tri tri_ok g m hr hp hb h2
  refine ⟨_, by rw [loadTri, points_ok 2 (by omega) g m hr.tags hr.coords hp.coords, Outcome.bind_ok, h1,
    Outcome.bind_ok], ⟨rfl, ?_⟩, h3, h4, ?_, rfl⟩
  · simp [MeshFile.mkNodes, hr.tags]
  · rw [List.map_map]; exact h5

example : ∃ s, loadTri srt exTriModel = .ok s ∧ FacesAs exTri s.edges s.boundary := by
  obtain ⟨s, h1, _, _, h2, _⟩ := c157_load_partial srt isSort_sortBy exTriModel exTri exTri_returns exTri_proper
    (by decide) (by
      intro f hf _
      match f, hf with
      | [a, b], _ =>
        by_cases ha : a < 5 ∧ b < 5
        · have : ∀ a < 5, ∀ b < 5, a ≠ b → around exTri.cells [a, b] ≤ 2 := by decide
          exact this a ha.1 b ha.2 (by simp_all)
        · have hc : ∀ c ∈ exTri.cells, ∀ i ∈ c.2, i < 5 := by decide
          have : around exTri.cells [a, b] = 0 := by
            unfold around
            rw [List.countP_eq_zero]
            intro c hc' h
            simp only [List.mem_cons, List.not_mem_nil, or_false, forall_eq_or_imp, forall_eq, decide_eq_true_eq] at h
            exact ha ⟨hc c hc' a h.1, hc c hc' b h.2⟩
          omega)
  exact ⟨s, h1, h2⟩

/-- C157 (refused): a side that is no edge of a triangle, as of a line in no surface, ends in an exception. -/
theorem c157_refuse (srt : List (List Nat × Nat × Nat) → List (List Nat × Nat × Nat)) (g : Model K) (m : Contents K)
    (hr : Returns Sides.edges g m) (hp : Proper 3 2 m) (hb : ∃ f ∈ m.sides, ∀ c ∈ m.cells, ∃ i ∈ f.2, i ∉ c.2) :
    (loadTri srt g).Throws := by
  have := core_throws srt tri tri_ok g m hr hp (by push Not; exact hb)
  rw [loadTri, points_ok 2 (by omega) g m hr.tags hr.coords hp.coords, Outcome.bind_ok]
  cases h : core srt tri g with
  | ok _ => rw [h] at this; exact this.elim
  | throws _ => trivial
  | ub _ => rw [h] at this; exact this.elim

example : (loadTri srt { exTriModel with patches := [⟨1, [⟨[10, 8], [], []⟩]⟩] }).Throws :=
  c157_refuse srt _ { exTri with patches := [(1, [[10, 8]])] }
    ⟨rfl, rfl, .cons ⟨rfl, .cons ⟨rfl, rfl⟩ .nil⟩ (.cons ⟨rfl, .cons ⟨rfl, rfl⟩ .nil⟩ .nil),
      .cons ⟨rfl, _, rfl, rfl⟩ .nil⟩ (by constructor <;> decide) (by decide)

/-- C157 (no more than two cells at a face): an edge with more than two triangles fails the assertion of
`mark_internal_faces`. -/
theorem c157_crowded (srt : List (List Nat × Nat × Nat) → List (List Nat × Nat × Nat)) (hs : IsSort srt) (g : Model K)
    (m : Contents K) (hr : Returns Sides.edges g m) (hp : Proper 3 2 m)
    (hb : ∀ f ∈ m.sides, ∃ c ∈ m.cells, ∀ i ∈ f.2, i ∈ c.2) (f : List Nat) (hf : f.Pairwise (· < ·)) (hl : f.length = 2)
    (h2 : 2 < around m.cells f) : (loadTri srt g).IsUB := by
  have := core_ub srt hs tri tri_ok g m hr hp hb f hf hl h2
  rw [loadTri, points_ok 2 (by omega) g m hr.tags hr.coords hp.coords, Outcome.bind_ok]
  cases h : core srt tri g with
  | ok _ => rw [h] at this; exact this.elim
  | throws _ => rw [h] at this; exact this.elim
  | ub _ => trivial

example : (loadTri srt { exTriModel with regions := [⟨7, [⟨2, [100, 101, 102], [10, 3, 5, 4, 5, 3, 3, 8, 5]⟩]⟩] }).IsUB :=
  c157_crowded srt isSort_sortBy _ { exTri with regions := [(7, [[[10, 3, 5], [4, 5, 3], [3, 8, 5]]])] }
    ⟨rfl, rfl, .cons ⟨rfl, .cons ⟨rfl, rfl⟩ .nil⟩ .nil, .cons ⟨rfl, _, rfl, rfl⟩ (.cons ⟨rfl, _, rfl, rfl⟩ .nil)⟩
    (by constructor <;> decide) (by decide) [1, 2] (by decide) rfl (by decide)

/-- C157 (undefined): an entity without elements of one of its types ends in a division by zero; a corner of a
triangle that is not among the nodes fails an assertion. -/
theorem c157_dangling (srt : List (List Nat × Nat × Nat) → List (List Nat × Nat × Nat)) (g : Model K)
    (h : ∃ r ∈ g.regions, ∃ b ∈ r.blocks, b.elemTags = [] ∨ ∃ i < b.elemTags.length, ∃ j < 3,
      ∀ t, b.nodeTags[b.nodeTags.length / b.elemTags.length * i + j]? = some t → t ∉ g.nodeTags) :
    (loadTri srt g).IsUB := by
  have := core_dangling srt tri g h
  unfold loadTri
  cases hp : points 2 g with
  | throws _ => exact absurd (by rw [hp]; trivial) (points_not_throws 2 g)
  | ub _ => trivial
  | ok ps => rw [Outcome.bind_ok]; exact bind_isUB _ _ this

example : (loadTri srt { exTriModel with regions := [⟨7, [⟨2, [100], [10, 7, 5]⟩]⟩] }).IsUB :=
  c157_dangling srt _ ⟨_, .head _, _, .head _, .inr ⟨0, by decide, 1, by decide, by decide⟩⟩

example : (loadTri srt { exTriModel with regions := [⟨7, [⟨2, [], []⟩]⟩] }).IsUB :=
  c157_dangling srt _ ⟨_, .head _, _, .head _, .inl rfl⟩

/-- C157 (violated): the identifier of a subdomain is the number of the triangle within its region. Two triangles of one
region get different identifiers, two of different regions the same. -/
theorem c157_id_violated : ∃ (g : Model ℤ) (m : Contents ℤ) (s : Loaded ℤ), Returns Sides.edges g m ∧ Proper 3 2 m ∧
    loadTri srt g = .ok s ∧ ((0, 7), [0, 1, 2]) ∈ m.cells ∧ ((0, 7), [3, 2, 1]) ∈ m.cells ∧ ((1, 9), [1, 4, 3]) ∈ m.cells ∧
    s.surfaces = [[0, 1, 2], [1, 2, 3], [1, 3, 4]] ∧ s.subdomains.map Prod.fst = [0, 1, 0] :=
  ⟨exTriModel, exTri, exTriMesh, exTri_returns, exTri_proper, exTri_load, by decide, by decide, by decide, rfl, rfl⟩

/-- A square of four quadrangles. -/
def exQuads : Contents ℤ :=
  { nodes := [(1, [0, 0, 0]), (2, [1, 0, 0]), (3, [2, 0, 0]), (4, [0, 1, 0]), (5, [1, 1, 0]), (6, [2, 1, 0]),
      (7, [0, 2, 0]), (8, [1, 2, 0]), (9, [2, 2, 0])]
    regions := [(1, [[[4, 1, 2, 5], [2, 3, 6, 5], [6, 9, 8, 5], [8, 7, 4, 5]]])]
    patches := [(1, [[1, 2], [2, 3]]), (2, [[3, 6], [6, 9]]), (3, [[9, 8], [8, 7]]), (4, [[7, 4], [4, 1]])] }

/-- What GMSH returns for it. -/
def exQuadsModel : Model ℤ :=
  { nodeTags := [1, 2, 3, 4, 5, 6, 7, 8, 9]
    coords := (exQuads.nodes.map Prod.snd).flatten
    regions := [⟨1, [⟨3, [11, 12, 13, 14], [4, 1, 2, 5, 2, 3, 6, 5, 6, 9, 8, 5, 8, 7, 4, 5]⟩]⟩]
    patches := [⟨1, [⟨[1, 2, 2, 3], [], []⟩]⟩, ⟨2, [⟨[3, 6, 6, 9], [], []⟩]⟩, ⟨3, [⟨[9, 8, 8, 7], [], []⟩]⟩,
      ⟨4, [⟨[7, 4, 4, 1], [], []⟩]⟩] }

/-- The mesh made of it. -/
def exQuadsMesh : Loaded ℤ :=
  { points := [[0, 0], [1, 0], [2, 0], [0, 1], [1, 1], [2, 1], [0, 2], [1, 2], [2, 2]]
    nodes := [[0], [1], [2], [3], [4], [5], [6], [7], [8]]
    edges := [[0, 1], [0, 3], [1, 2], [1, 3], [1, 5], [2, 5], [3, 6], [3, 7], [5, 7], [5, 8], [6, 7], [7, 8]]
    surfaces := [[0, 1, 3], [1, 2, 5], [3, 6, 7], [5, 7, 8]]
    volumes := []
    boundary := [⟨0, 1, true, false⟩, ⟨3, 4, true, false⟩, ⟨0, 1, true, false⟩, .default, .default, ⟨1, 2, true, false⟩,
      ⟨3, 4, true, false⟩, .default, .default, ⟨1, 2, true, false⟩, ⟨2, 3, true, false⟩, ⟨2, 3, true, false⟩]
    subdomains := [(0, 1), (1, 1), (3, 1), (2, 1)] }

theorem exQuads_load : loadTri srt exQuadsModel = .ok exQuadsMesh := by decide +kernel

/-- C157 (violated): quadrangles are not refused. Of each the first three corners make a triangle; here a square of four
quadrangles becomes four triangles in its corners, and the centre belongs to no cell. -/
theorem c157_quadrangle_violated : ∃ (g : Model ℤ) (m : Contents ℤ) (s : Loaded ℤ), Returns Sides.edges g m ∧
    Proper 4 2 m ∧ loadTri srt g = .ok s ∧ (∀ c ∈ m.cells, 4 ∈ c.2) ∧ s.surfaces.length = 4 ∧ ∀ c ∈ s.surfaces, 4 ∉ c := by
  refine ⟨exQuadsModel, exQuads, exQuadsMesh, ⟨rfl, rfl, .cons ⟨rfl, .cons ⟨rfl, rfl⟩ .nil⟩ .nil, .cons ⟨rfl, _, rfl, rfl⟩
    (.cons ⟨rfl, _, rfl, rfl⟩ (.cons ⟨rfl, _, rfl, rfl⟩ (.cons ⟨rfl, _, rfl, rfl⟩ .nil)))⟩,
    by constructor <;> decide, exQuads_load, by decide, by decide, by decide⟩

/-! ### C158: tetrahedra -/

/-- Two tetrahedra with a common face in two regions; the common face and one at the outside are patches. -/
def exTet : Contents ℤ :=
  { nodes := [(2, [0, 0, 0]), (9, [1, 0, 0]), (4, [0, 1, 0]), (6, [0, 0, 1]), (1, [1, 1, 1])]
    regions := [(5, [[[1, 4, 9, 6]]]), (3, [[[2, 9, 4, 6]]])]
    patches := [(31, [[9, 2, 4]]), (30, [[6, 9, 4]])] }

/-- What GMSH returns for it. -/
def exTetModel : Model ℤ :=
  { nodeTags := [2, 9, 4, 6, 1]
    coords := [0, 0, 0, 1, 0, 0, 0, 1, 0, 0, 0, 1, 1, 1, 1]
    regions := [⟨5, [⟨4, [77], [1, 4, 9, 6]⟩]⟩, ⟨3, [⟨4, [78], [2, 9, 4, 6]⟩]⟩]
    patches := [⟨31, [⟨[9, 2, 2, 4, 4, 9], [9, 2, 4], []⟩]⟩, ⟨30, [⟨[6, 9, 9, 4, 4, 6], [6, 9, 4], []⟩]⟩] }

theorem exTet_returns : Returns Sides.tri exTetModel exTet :=
  ⟨rfl, rfl,
    .cons ⟨rfl, .cons ⟨rfl, rfl⟩ .nil⟩ (.cons ⟨rfl, .cons ⟨rfl, rfl⟩ .nil⟩ .nil),
    .cons ⟨rfl, _, rfl, rfl⟩ (.cons ⟨rfl, _, rfl, rfl⟩ .nil)⟩

theorem exTet_proper : Proper 4 3 exTet := by constructor <;> decide

/-- The mesh made of it. -/
def exTetMesh : Loaded ℤ :=
  { points := [[0, 0, 0], [1, 0, 0], [0, 1, 0], [0, 0, 1], [1, 1, 1]]
    nodes := [[0], [1], [2], [3], [4]]
    edges := [[0, 1], [0, 2], [0, 3], [1, 2], [1, 3], [1, 4], [2, 3], [2, 4], [3, 4]]
    surfaces := [[0, 1, 2], [0, 1, 3], [0, 2, 3], [1, 2, 3], [1, 2, 4], [1, 3, 4], [2, 3, 4]]
    volumes := [[0, 1, 2, 3], [1, 2, 3, 4]]
    boundary := [⟨0, 31, true, false⟩, .default, .default, ⟨1, 30, true, true⟩, .default, .default, .default]
    subdomains := [(0, 3), (0, 5)] }

theorem exTet_load : loadTet srt exTetModel = .ok exTetMesh := by decide +kernel

/-- C158 (what is stored): for a mesh of tetrahedra all of whose sides belong to tetrahedra, with at most two tetrahedra
at a triangle, the points are the nodes in the same order; the edges and the surfaces are the pairs and triples of
corners of the tetrahedra, each once and in increasing order; the cells are the tetrahedra, with the tags of their
regions; a surface is a boundary face exactly if a patch has it, with number and tag of the last such patch, and is
internal if moreover two tetrahedra share it. -/
theorem c158_load_partial (srt : List (List Nat × Nat × Nat) → List (List Nat × Nat × Nat)) (hs : IsSort srt)
    (g : Model K) (m : Contents K) (hr : Returns Sides.tri g m) (hp : Proper 4 3 m)
    (hb : ∀ f ∈ m.sides, ∃ c ∈ m.cells, ∀ i ∈ f.2, i ∈ c.2)
    (h2 : ∀ f : List Nat, f.length = 3 → f.Nodup → around m.cells f ≤ 2) :
    ∃ s, loadTet srt g = .ok s ∧ PointsAs 3 m s.points s.nodes ∧
      Collects s.edges (fun e => ∃ c ∈ m.cells, SubSimplex 2 e c.2) ∧
      Collects s.surfaces (fun e => ∃ c ∈ m.cells, SubSimplex 3 e c.2) ∧ FacesAs m s.surfaces s.boundary ∧
      CellsAs m s.volumes (s.subdomains.map Prod.snd) := by
  obtain ⟨c, h1, h6, h3, h4, h5, _⟩ := core_ok srt hs tet tet_ok g m hr hp hb h2
  refine ⟨_, by rw [loadTet, points_ok 3 (by omega) g m hr.tags hr.coords hp.coords, Outcome.bind_ok, h1,
    Outcome.bind_ok], ⟨rfl, ?_⟩, ?_, h3, h4, ?_⟩
  · simp [MeshFile.mkNodes, hr.tags]
  · refine MeshFile.Collects.congr (MeshFile.collects_sortUniq _) fun e => ?_
    rw [h6, List.mem_flatMap]
    constructor
    · rintro ⟨p, hp', he⟩
      obtain ⟨c, hc, rfl⟩ := List.mem_map.1 hp'
      exact ⟨c, hc, (MeshFile.mem_tetEdges c.2 e (cells_ok m hp c hc).1 (cells_ok m hp c hc).2).1 he⟩
    · rintro ⟨c, hc, he⟩
      exact ⟨c.2, List.mem_map_of_mem hc, (MeshFile.mem_tetEdges c.2 e (cells_ok m hp c hc).1 (cells_ok m hp c hc).2).2 he⟩
  · rw [List.map_map]; exact h5

example : ∃ s, loadTet srt exTetModel = .ok s ∧ FacesAs exTet s.surfaces s.boundary := by
  obtain ⟨s, h1, _, _, _, h2, _⟩ := c158_load_partial srt isSort_sortBy exTetModel exTet exTet_returns exTet_proper
    (by decide) (fun f _ _ => List.countP_le_length)
  exact ⟨s, h1, h2⟩

/-- C158 (refused): a side that is no face of a tetrahedron ends in an exception. -/
theorem c158_refuse (srt : List (List Nat × Nat × Nat) → List (List Nat × Nat × Nat)) (g : Model K) (m : Contents K)
    (hr : Returns Sides.tri g m) (hp : Proper 4 3 m) (hb : ∃ f ∈ m.sides, ∀ c ∈ m.cells, ∃ i ∈ f.2, i ∉ c.2) :
    (loadTet srt g).Throws := by
  have := core_throws srt tet tet_ok g m hr hp (by push Not; exact hb)
  rw [loadTet, points_ok 3 (by omega) g m hr.tags hr.coords hp.coords, Outcome.bind_ok]
  cases h : core srt tet g with
  | ok _ => rw [h] at this; exact this.elim
  | throws _ => trivial
  | ub _ => rw [h] at this; exact this.elim

example : (loadTet srt { exTetModel with patches := [⟨1, [⟨[], [2, 9, 1], []⟩]⟩] }).Throws :=
  c158_refuse srt _ { exTet with patches := [(1, [[2, 9, 1]])] }
    ⟨rfl, rfl, .cons ⟨rfl, .cons ⟨rfl, rfl⟩ .nil⟩ (.cons ⟨rfl, .cons ⟨rfl, rfl⟩ .nil⟩ .nil),
      .cons ⟨rfl, _, rfl, rfl⟩ .nil⟩ (by constructor <;> decide) (by decide)

/-- C158 (no more than two cells at a face): a triangle with more than two tetrahedra fails the assertion of
`mark_internal_faces`. -/
theorem c158_crowded (srt : List (List Nat × Nat × Nat) → List (List Nat × Nat × Nat)) (hs : IsSort srt) (g : Model K)
    (m : Contents K) (hr : Returns Sides.tri g m) (hp : Proper 4 3 m)
    (hb : ∀ f ∈ m.sides, ∃ c ∈ m.cells, ∀ i ∈ f.2, i ∈ c.2) (f : List Nat) (hf : f.Pairwise (· < ·)) (hl : f.length = 3)
    (h2 : 2 < around m.cells f) : (loadTet srt g).IsUB := by
  have := core_ub srt hs tet tet_ok g m hr hp hb f hf hl h2
  rw [loadTet, points_ok 3 (by omega) g m hr.tags hr.coords hp.coords, Outcome.bind_ok]
  cases h : core srt tet g with
  | ok _ => rw [h] at this; exact this.elim
  | throws _ => rw [h] at this; exact this.elim
  | ub _ => trivial

example : (loadTet srt { exTetModel with regions := [⟨5, [⟨4, [1, 2, 3], [1, 4, 9, 6, 2, 9, 4, 6, 6, 9, 4, 2]⟩]⟩] }).IsUB :=
  c158_crowded srt isSort_sortBy _ { exTet with regions := [(5, [[[1, 4, 9, 6], [2, 9, 4, 6], [6, 9, 4, 2]]])] }
    ⟨rfl, rfl, .cons ⟨rfl, .cons ⟨rfl, rfl⟩ .nil⟩ .nil, .cons ⟨rfl, _, rfl, rfl⟩ (.cons ⟨rfl, _, rfl, rfl⟩ .nil)⟩
    (by constructor <;> decide) (by decide) [1, 2, 3] (by decide) rfl (by decide)

/-- C158 (undefined): an entity without elements of one of its types ends in a division by zero; a corner of a
tetrahedron that is not among the nodes fails an assertion. -/
theorem c158_dangling (srt : List (List Nat × Nat × Nat) → List (List Nat × Nat × Nat)) (g : Model K)
    (h : ∃ r ∈ g.regions, ∃ b ∈ r.blocks, b.elemTags = [] ∨ ∃ i < b.elemTags.length, ∃ j < 4,
      ∀ t, b.nodeTags[b.nodeTags.length / b.elemTags.length * i + j]? = some t → t ∉ g.nodeTags) :
    (loadTet srt g).IsUB := by
  have := core_dangling srt tet g h
  unfold loadTet
  cases hp : points 3 g with
  | throws _ => exact absurd (by rw [hp]; trivial) (points_not_throws 3 g)
  | ub _ => trivial
  | ok ps => rw [Outcome.bind_ok]; exact bind_isUB _ _ this

example : (loadTet srt { exTetModel with regions := [⟨7, [⟨4, [100], [1, 7, 9, 6]⟩]⟩] }).IsUB :=
  c158_dangling srt _ ⟨_, .head _, _, .head _, .inr ⟨0, by decide, 1, by decide, by decide⟩⟩

example : (loadTet srt { exTetModel with regions := [⟨7, [⟨2, [], []⟩]⟩] }).IsUB :=
  c158_dangling srt _ ⟨_, .head _, _, .head _, .inl rfl⟩

/-- C158 (violated): the identifier of a subdomain is the number of the tetrahedron within its region: here that of
both regions is 0. -/
theorem c158_id_violated : ∃ (g : Model ℤ) (m : Contents ℤ) (s : Loaded ℤ), Returns Sides.tri g m ∧ Proper 4 3 m ∧
    loadTet srt g = .ok s ∧ ((0, 5), [4, 2, 1, 3]) ∈ m.cells ∧ ((1, 3), [0, 1, 2, 3]) ∈ m.cells ∧
    s.volumes = [[0, 1, 2, 3], [1, 2, 3, 4]] ∧ s.subdomains.map Prod.fst = [0, 0] :=
  ⟨exTetModel, exTet, exTetMesh, exTet_returns, exTet_proper, exTet_load, by decide, by decide, rfl, rfl⟩

/-- C158 (violated): hexahedra are not refused. Of a hexahedron the first four corners, which lie in one of its sides,
are stored as a tetrahedron; its boundary, which consists of quadrangles, is lost. -/
theorem c158_hexahedron_violated : ∃ (g : Model ℤ) (m : Contents ℤ) (s : Loaded ℤ), Proper 8 4 m ∧
    Returns Sides.quad g m ∧ loadTet srt g = .ok s ∧ s.volumes = [[0, 1, 2, 3]] ∧
    (∀ i ∈ [0, 1, 2, 3], ∃ p, s.points[i]? = some p ∧ p[2]? = some 0) ∧ m.sides.length = 6 ∧
    ∀ d ∈ s.boundary, d.isB = false := by
  refine ⟨{ nodeTags := [1, 2, 3, 4, 5, 6, 7, 8]
            coords := [0, 0, 0, 1, 0, 0, 1, 1, 0, 0, 1, 0, 0, 0, 1, 1, 0, 1, 1, 1, 1, 0, 1, 1]
            regions := [⟨1, [⟨5, [11], [1, 2, 3, 4, 5, 6, 7, 8]⟩]⟩]
            patches := [⟨1, [⟨[], [], [1, 2, 3, 4, 5, 6, 7, 8, 1, 2, 6, 5, 2, 3, 7, 6, 3, 4, 8, 7, 4, 1, 5, 8]⟩]⟩] },
    { nodes := [(1, [0, 0, 0]), (2, [1, 0, 0]), (3, [1, 1, 0]), (4, [0, 1, 0]), (5, [0, 0, 1]), (6, [1, 0, 1]),
        (7, [1, 1, 1]), (8, [0, 1, 1])]
      regions := [(1, [[[1, 2, 3, 4, 5, 6, 7, 8]]])]
      patches := [(1, [[1, 2, 3, 4], [5, 6, 7, 8], [1, 2, 6, 5], [2, 3, 7, 6], [3, 4, 8, 7], [4, 1, 5, 8]])] },
    { points := [[0, 0, 0], [1, 0, 0], [1, 1, 0], [0, 1, 0], [0, 0, 1], [1, 0, 1], [1, 1, 1], [0, 1, 1]]
      nodes := [[0], [1], [2], [3], [4], [5], [6], [7]]
      edges := [[0, 1], [0, 2], [0, 3], [1, 2], [1, 3], [2, 3]]
      surfaces := [[0, 1, 2], [0, 1, 3], [0, 2, 3], [1, 2, 3]]
      volumes := [[0, 1, 2, 3]]
      boundary := [.default, .default, .default, .default]
      subdomains := [(0, 1)] },
    by constructor <;> decide, ⟨rfl, rfl, .cons ⟨rfl, .cons ⟨rfl, rfl⟩ .nil⟩ .nil, .cons ⟨rfl, _, rfl, rfl⟩ .nil⟩,
    by decide +kernel, rfl, ?_, by decide, by decide⟩
  intro i hi
  simp only [List.mem_cons, List.not_mem_nil, or_false] at hi
  rcases hi with rfl | rfl | rfl | rfl <;> exact ⟨_, rfl, rfl⟩

end Verif.Props.Gmsh
