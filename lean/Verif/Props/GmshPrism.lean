import Verif.Lemmas.GmshPrism
/-! C159: prisms generated by GMSH. -/
namespace Verif.Props.GmshPrism
open Verif.GmshPrism Verif.Spec.GmshPrism Verif.MeshTopo
open Verif.Gmsh (Model)
open Verif.Spec.Gmsh (Contents Corners)
variable {K : Type}

/-- Two prisms with a common quadrilateral in two regions, tags 7 and 9; the common face and two at the outside are
patches. -/
def exPrisms : Contents ℤ :=
  { nodes := [(10, [0, 0, 0]), (3, [1, 0, 0]), (5, [0, 1, 0]), (4, [0, 0, 1]), (8, [1, 0, 1]), (6, [0, 1, 1]), (2, [1, 1, 0]),
      (1, [1, 1, 1])]
    regions := [(7, [[[3, 2, 5, 8, 1, 6]]]), (9, [[[10, 3, 5, 4, 8, 6]]])]
    patches := [(21, [[5, 3, 10], [10, 3, 8, 4]]), (22, [[3, 5, 6, 8]])] }

/-- What GMSH returns for it. -/
def exPrismsModel : Model ℤ :=
  { nodeTags := [10, 3, 5, 4, 8, 6, 2, 1]
    coords := (exPrisms.nodes.map Prod.snd).flatten
    regions := [⟨7, [⟨6, [100], [3, 2, 5, 8, 1, 6]⟩]⟩, ⟨9, [⟨6, [101], [10, 3, 5, 4, 8, 6]⟩]⟩]
    patches := [⟨21, [⟨[], [5, 3, 10], [10, 3, 8, 4]⟩]⟩, ⟨22, [⟨[], [], [3, 5, 6, 8]⟩]⟩] }

theorem exPrisms_returns : Returns exPrismsModel exPrisms :=
  ⟨rfl, rfl,
    .cons ⟨rfl, .cons ⟨rfl, rfl, rfl⟩ .nil⟩ (.cons ⟨rfl, .cons ⟨rfl, rfl, rfl⟩ .nil⟩ .nil),
    .cons ⟨rfl, _, [[5, 3, 10]], [[10, 3, 8, 4]], rfl, rfl, rfl, rfl, by decide, by decide⟩
      (.cons ⟨rfl, _, [], [[3, 5, 6, 8]], rfl, rfl, rfl, rfl, by decide, by decide⟩ .nil)⟩

instance (m : Contents ℤ) (n : Nat) (e : List Nat) : Decidable (Corners m n e) := by unfold Corners; infer_instance

theorem exPrisms_proper : Proper exPrisms := by constructor <;> decide

/-- C159 (what is stored): for a mesh of prisms all of whose sides are faces of prisms, with at most two prisms at a face,
the points are the nodes in the same order; the edges are those of the prisms, each once and in increasing order; the
surfaces are the faces of the prisms, each once, with points along the border and edge `i` joining points `i` and `i+1`; the
volumes are the prisms with the numbers of their faces, with number and tag of their regions; a surface is a boundary face
exactly if a patch has it, with number and tag of the last such patch, and is internal if moreover two prisms share it. -/
theorem c159_load_partial (srt : Sorter) (hs : IsSorter srt) (g : Model K) (m : Contents K) (hr : Returns g m)
    (hp : Proper m) (hb : ∀ f ∈ m.sides, ∃ c ∈ m.cells, HasFace c.2 f.2) (h2 : ∀ f, around m.cells f ≤ 2) :
    ∃ s, load srt g = .ok s ∧ StoredAs m s := by
  obtain ⟨E, S, vs, hm, h⟩ := load_made hs g m hr hp
  rw [h]
  exact rest_ok hs hm hp hb h2

example : ∃ s, load bySort exPrismsModel = .ok s ∧ StoredAs exPrisms s :=
  c159_load_partial bySort isSorter_bySort _ _ exPrisms_returns exPrisms_proper (by decide) fun _ => List.countP_le_length

/-- C159 (refused): the first side that is no face of a prism ends in an exception, unless its nodes are the first ones of
those of some face. -/
theorem c159_refuse (srt : Sorter) (hs : IsSorter srt) (g : Model K) (m : Contents K) (hr : Returns g m) (hp : Proper m)
    (A B : List ((Nat × Nat) × List Nat)) (x : (Nat × Nat) × List Nat) (he : m.sides = A ++ x :: B)
    (hA : ∀ f ∈ A, ∃ c ∈ m.cells, HasFace c.2 f.2) (hx : ∀ c ∈ m.cells, ¬ HasFace c.2 x.2)
    (hn : ∀ c ∈ m.cells, ∀ f ∈ facesOf c.2, ¬ Begins x.2 f) : (load srt g).Throws := by
  obtain ⟨E, S, vs, hm, h⟩ := load_made hs g m hr hp
  rw [h]
  exact (rest_bad hs hm hp A B x he hA hx).1 hn

/-- `Begins` by sorting. -/
theorem begins_dec {x f : List Nat} (hx : x.Nodup) (hf : f.Nodup)
    (h : ¬ MeshFile.simplex x <+: MeshFile.simplex f) : ¬ Begins x f :=
  fun h' => h ((begins_iff hx hf).1 h')

example : (load bySort { exPrismsModel with patches := [⟨21, [⟨[], [5, 3, 10, 10, 5, 8], []⟩]⟩] }).Throws :=
  c159_refuse bySort isSorter_bySort _ { exPrisms with patches := [(21, [[5, 3, 10], [10, 5, 8]])] }
    ⟨rfl, rfl, .cons ⟨rfl, .cons ⟨rfl, rfl, rfl⟩ .nil⟩ (.cons ⟨rfl, .cons ⟨rfl, rfl, rfl⟩ .nil⟩ .nil),
      .cons ⟨rfl, _, [[5, 3, 10], [10, 5, 8]], [], rfl, rfl, rfl, rfl, by decide, by decide⟩ .nil⟩
    (by constructor <;> decide) [((0, 21), [2, 1, 0])] [] ((0, 21), [0, 2, 4]) (by decide) (by decide) (by decide)
    (by
      have h : ∀ c ∈ exPrisms.cells, ∀ f ∈ facesOf c.2, f.Nodup ∧
        ¬ MeshFile.simplex [0, 2, 4] <+: MeshFile.simplex f := by decide +kernel
      exact fun c hc f hf => begins_dec (by decide) (h c hc f hf).1 (h c hc f hf).2)

/-- C159 (violated): if the nodes of a triangular side that is no face are the first three nodes of a quadrilateral face,
`std::equal` reads past the end of the nodes of the side. -/
theorem c159_prefix_violated (srt : Sorter) (hs : IsSorter srt) (g : Model K) (m : Contents K) (hr : Returns g m)
    (hp : Proper m) (A B : List ((Nat × Nat) × List Nat)) (x : (Nat × Nat) × List Nat) (he : m.sides = A ++ x :: B)
    (hA : ∀ f ∈ A, ∃ c ∈ m.cells, HasFace c.2 f.2) (hx : ∀ c ∈ m.cells, ¬ HasFace c.2 x.2)
    (hn : ∃ c ∈ m.cells, ∃ f ∈ facesOf c.2, Begins x.2 f) : (load srt g).IsUB := by
  obtain ⟨E, S, vs, hm, h⟩ := load_made hs g m hr hp
  rw [h]
  exact (rest_bad hs hm hp A B x he hA hx).2 hn

/-- Half of the quadrilateral `0 1 4 3`, as a side of a tetrahedron or pyramid may be. -/
example : (load bySort { exPrismsModel with patches := [⟨21, [⟨[], [10, 3, 4], []⟩]⟩] }).IsUB :=
  c159_prefix_violated bySort isSorter_bySort _ { exPrisms with patches := [(21, [[10, 3, 4]])] }
    ⟨rfl, rfl, .cons ⟨rfl, .cons ⟨rfl, rfl, rfl⟩ .nil⟩ (.cons ⟨rfl, .cons ⟨rfl, rfl, rfl⟩ .nil⟩ .nil),
      .cons ⟨rfl, _, [[10, 3, 4]], [], rfl, rfl, rfl, rfl, by decide, by decide⟩ .nil⟩
    (by constructor <;> decide) [] [] ((0, 21), [0, 1, 3]) (by decide) (by decide) (by decide)
    ⟨((1, 9), [0, 1, 2, 3, 4, 5]), by decide, [0, 1, 4, 3], by decide, [4], by decide, by decide⟩

/-- C159 (no more than two cells at a face): a face with more than two prisms fails the assertion of
`mark_internal_faces`. -/
theorem c159_crowded (srt : Sorter) (hs : IsSorter srt) (g : Model K) (m : Contents K) (hr : Returns g m) (hp : Proper m)
    (hb : ∀ f ∈ m.sides, ∃ c ∈ m.cells, HasFace c.2 f.2) (f : List Nat) (h2 : 2 < around m.cells f) :
    (load srt g).IsUB := by
  obtain ⟨E, S, vs, hm, h⟩ := load_made hs g m hr hp
  rw [h]
  exact rest_ub hs hm hp hb f h2

example : (load bySort { exPrismsModel with regions := [⟨7, [⟨6, [100, 101, 102],
      [3, 2, 5, 8, 1, 6, 10, 3, 5, 4, 8, 6, 3, 5, 10, 8, 6, 1]⟩]⟩] }).IsUB :=
  c159_crowded bySort isSorter_bySort _ { exPrisms with regions := [(7, [[[3, 2, 5, 8, 1, 6], [10, 3, 5, 4, 8, 6],
      [3, 5, 10, 8, 6, 1]]])] }
    ⟨rfl, rfl, .cons ⟨rfl, .cons ⟨rfl, rfl, rfl⟩ .nil⟩ .nil,
      .cons ⟨rfl, _, [[5, 3, 10]], [[10, 3, 8, 4]], rfl, rfl, rfl, rfl, by decide, by decide⟩
      (.cons ⟨rfl, _, [], [[3, 5, 6, 8]], rfl, rfl, rfl, rfl, by decide, by decide⟩ .nil)⟩
    (by constructor <;> decide) (by decide) [1, 2, 5, 4] (by decide)

/-- C159 (other elements): elements that are no prisms have no influence on the mesh. -/
theorem c159_others (srt : Sorter) (g : Model K) : load srt g = load srt { g with regions := g.regions.map fun r =>
    { r with blocks := r.blocks.filter fun b => b.type = 6 } } := load_filter g

/-- Four prisms around a tetrahedron. -/
def exHole : Model ℤ :=
  { nodeTags := [1, 2, 3, 4, 5, 6, 7, 8]
    coords := [4, 4, 4, 8, 4, 4, 4, 8, 4, 4, 4, 8, 2, 2, 2, 14, 2, 2, 2, 14, 2, 2, 2, 14]
    regions := [⟨1, [⟨4, [50], [1, 2, 3, 4]⟩, ⟨6, [51, 52, 53, 54],
      [1, 2, 3, 5, 6, 7, 1, 2, 4, 5, 6, 8, 1, 3, 4, 5, 7, 8, 2, 3, 4, 6, 7, 8]⟩]⟩]
    patches := [⟨1, [⟨[], [5, 6, 7, 5, 6, 8, 5, 7, 8, 6, 7, 8], []⟩]⟩] }

/-- The mesh made of it. -/
def exHoleMesh : Loaded ℤ :=
  { points := [[4, 4, 4], [8, 4, 4], [4, 8, 4], [4, 4, 8], [2, 2, 2], [14, 2, 2], [2, 14, 2], [2, 2, 14]]
    nodes := [[0], [1], [2], [3], [4], [5], [6], [7]]
    edges := [[0, 1], [0, 2], [0, 3], [0, 4], [1, 2], [1, 3], [1, 5], [2, 3], [2, 6], [3, 7], [4, 5], [4, 6], [4, 7], [5, 6],
      [5, 7], [6, 7]]
    surfaces := [([0, 4, 1], [0, 1, 2]), ([0, 5, 2], [0, 1, 3]), ([0, 6, 10, 3], [0, 1, 5, 4]), ([1, 7, 2], [0, 2, 3]),
      ([1, 8, 11, 3], [0, 2, 6, 4]), ([2, 9, 12, 3], [0, 3, 7, 4]), ([4, 7, 5], [1, 2, 3]), ([4, 8, 13, 6], [1, 2, 6, 5]),
      ([5, 9, 14, 6], [1, 3, 7, 5]), ([7, 9, 15, 8], [2, 3, 7, 6]), ([10, 13, 11], [4, 5, 6]), ([10, 14, 12], [4, 5, 7]),
      ([11, 15, 12], [4, 6, 7]), ([13, 15, 14], [5, 6, 7])]
    volumes := [([0, 2, 4, 7, 10], [0, 1, 2, 4, 5, 6]), ([1, 2, 5, 8, 11], [0, 1, 3, 4, 5, 7]),
      ([3, 4, 5, 9, 12], [0, 2, 3, 4, 6, 7]), ([6, 7, 8, 9, 13], [1, 2, 3, 5, 6, 7])]
    boundary := List.replicate 10 .default ++ List.replicate 4 ⟨0, 1, true, false⟩
    subdomains := [(0, 1), (0, 1), (0, 1), (0, 1)] }

theorem exHole_load : load bySort exHole = .ok exHoleMesh := by decide +kernel

/-- C159 (violated): a tetrahedron is not refused but left out. Here it is surrounded by four prisms; the mesh loaded has a
hole, and its triangle belongs to one volume but is not a boundary face. -/
theorem c159_unsupported_violated : ∃ (g : Model ℤ) (s : Loaded ℤ), load bySort g = .ok s ∧
    (∃ r ∈ g.regions, ∃ b ∈ r.blocks, b.type = 4 ∧ b.elemTags.length = 1) ∧ s.volumes.length = 4 ∧
    (∀ v ∈ s.volumes, v.2.length = 6) ∧ s.surfaces[0]? = some ([0, 4, 1], [0, 1, 2]) ∧
    (s.volumes.countP fun v => decide (0 ∈ v.1)) = 1 ∧ s.boundary[0]? = some .default :=
  ⟨exHole, exHoleMesh, exHole_load, by decide, by decide, by decide, by decide, by decide, by decide⟩

end Verif.Props.GmshPrism
