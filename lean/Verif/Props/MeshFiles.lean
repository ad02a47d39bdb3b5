import Verif.Lemmas.Renumber
import Verif.Lemmas.Fvca6
import Verif.Lemmas.Sort
import Verif.Lemmas.SingleMesh
/-!
C31: sorting the entities of a mesh file and renumbering the references to them. C32: reading FVCA6 files.
-/
namespace Verif.Props.MeshFiles
open Verif Verif.Renumber Verif.Spec

/-- Sorting by insertion meets the contract of `std::sort`. -/
def srt (l : List Entry) : List Entry := Sort.sortBy (fun a b => decide (a.2 < b.2)) l

theorem srt_isSort : IsSort srt := by
  intro l
  refine ⟨Sort.sortBy_perm _ _, ?_⟩
  have := Sort.sortBy_weak (fun a b : Entry => decide (a.2 < b.2)) ?_ ?_ l
  · exact this.imp fun h => by simpa using h
  · intro a b h
    simp only [decide_eq_true_eq, decide_eq_false_iff_not] at h ⊢
    exact List.lt_asymm h
  · intro a b c h1 h2
    simp only [decide_eq_false_iff_not, List.not_lt] at h1 h2 ⊢
    exact List.le_trans h1 h2

example : ∃ f, IsSort f := ⟨srt, srt_isSort⟩

/-- C31, FVCA6: for references in range, however the sort orders equal entities, loading succeeds and there are
permutations of the edge, face and volume numbers such that every entity of the file is found at its new number
with the same points and with references to the new numbers of the entities it referred to. Edges, faces and
volumes are in order. -/
theorem c31_fvca6 (srt : List Entry → List Entry) (hs : IsSort srt) (edges f2e f2v v2f v2v : List (List Nat))
    (hfe : ∀ l ∈ f2e, ∀ i ∈ l, i < edges.length) (hvf : ∀ l ∈ v2f, ∀ i ∈ l, i < f2e.length)
    (hfv : f2v.length = f2e.length) (hvv : v2v.length = v2f.length) :
    ∃ L π σ τ, fvca6 srt edges f2e f2v v2f v2v = .ok L ∧
      PermBelow edges.length π ∧ PermBelow f2e.length σ ∧ PermBelow v2f.length τ ∧
      L.edges.length = edges.length ∧ L.faces.length = f2e.length ∧ L.vols.length = v2f.length ∧
      (∀ i e, edges[i]? = some e → L.edges[π i]? = some e) ∧
      (∀ i es vs, f2e[i]? = some es → f2v[i]? = some vs → L.faces[σ i]? = some (es.map π, vs)) ∧
      (∀ i fs vs, v2f[i]? = some fs → v2v[i]? = some vs → L.vols[τ i]? = some (fs.map σ, vs)) ∧
      L.edges.Pairwise (fun a b => ¬ b < a) ∧ (L.faces.map Prod.fst).Pairwise (fun a b => ¬ b < a) ∧
      (L.vols.map Prod.fst).Pairwise (fun a b => ¬ b < a) := by
  have hmem : ∀ (l : List (List Nat)) (x : Entry), x ∈ enumerate l → x.2 ∈ l := by
    intro l x hx
    exact List.mem_of_getElem? ((mem_enumerate l x.1 x.2).1 hx)
  obtain ⟨L, t, t', τ, h1, h2, h3, h4, h5, h6, h7, h8, h9, h10, h11, h12, h13⟩ :=
    populate3_ok (.ub "conv_table[first] out of range") hs
      ⟨enumerate edges, enumerate f2e, f2v, enumerate v2f, v2v⟩ (by
        refine { e := ?_, f := ?_, fe := ?_, fv := ?_, v := ?_, vf := ?_, vv := ?_ }
        · simp only [enumerate_fst, enumerate_length]; exact .refl _
        · simp only [enumerate_fst, enumerate_length]; exact .refl _
        · simp only [enumerate_length]; exact fun x hx => hfe _ (hmem _ x hx)
        · simp only [enumerate_length]; exact hfv
        · simp only [enumerate_fst, enumerate_length]; exact .refl _
        · simp only [enumerate_length]; exact fun x hx => hvf _ (hmem _ x hx)
        · simp only [enumerate_length]; exact hvv)
  simp only [enumerate_length] at h2 h3 h4 h5 h6
  refine ⟨L, posOf t, posOf t', τ, ?_, h4, h5, h6, ?_, ?_, ?_, ?_, ?_, ?_, h10, h11, h12⟩
  · rw [fvca6, h1]; rfl
  · rw [h7.1, enumerate_length]
  · rw [h8.1, enumerate_length]
  · rw [h9.1, enumerate_length]
  · intro i e he
    exact h7.2 i e ((mem_enumerate _ _ _).2 he)
  · intro i es vs he hv
    rw [h8.2 i es ((mem_enumerate _ _ _).2 he)]
    simp [List.getD_eq_getElem?_getD, hv]
  · intro i es vs he hv
    rw [h9.2 i es ((mem_enumerate _ _ _).2 he)]
    simp [List.getD_eq_getElem?_getD, hv]

/-- A tetrahedron with its edges and faces in scrambled order. -/
example : fvca6 srt [[2, 3], [0, 1], [1, 2], [0, 2], [0, 3], [1, 3]] [[1, 2, 3], [0, 3, 4], [1, 5, 4], [0, 5, 2]]
    [[0, 1, 2], [0, 2, 3], [0, 1, 3], [1, 2, 3]] [[3, 1, 0, 2]] [[0, 1, 2, 3]] =
    .ok ⟨[[0, 1], [0, 2], [0, 3], [1, 2], [1, 3], [2, 3]],
      [([0, 3, 1], [0, 1, 2]), ([0, 4, 2], [0, 1, 3]), ([5, 1, 2], [0, 2, 3]), ([5, 4, 3], [1, 2, 3])],
      [([3, 2, 0, 1], [0, 1, 2, 3])]⟩ := by decide +kernel

/-- C31, `poly` files in 3D: the numbers of the entities are those in the file, in any order; boundary faces get
the number of the last group they are listed in, other faces none. -/
theorem c31_poly3 (srt : List Entry → List Entry) (hs : IsSort srt) (r : Raw) (h : r.WF3) (groups : List Entry)
    (hg : ∀ g ∈ groups, ∀ i ∈ g.2, i < r.f2e.length) :
    ∃ L b π σ τ, poly3 srt r groups = .ok (L, b) ∧
      PermBelow r.edges.length π ∧ PermBelow r.f2e.length σ ∧ PermBelow r.v2f.length τ ∧
      Moved π (fun _ e => e) r.edges L.edges ∧
      Moved σ (fun i x => (x.map π, r.f2v.getD i [])) r.f2e L.faces ∧
      Moved τ (fun i x => (x.map σ, r.v2v.getD i [])) r.v2f L.vols ∧
      b.length = L.faces.length ∧ (∀ i, i < r.f2e.length → b[σ i]? = some (lastGroup groups i)) ∧
      L.edges.Pairwise (fun a b => ¬ b < a) ∧ (L.faces.map Prod.fst).Pairwise (fun a b => ¬ b < a) ∧
      (L.vols.map Prod.fst).Pairwise (fun a b => ¬ b < a) := by
  obtain ⟨L, t, t', τ, h1, h2, h3, h4, h5, h6, h7, h8, h9, h10, h11, h12, h13⟩ :=
    populate3_ok (.throws "out_of_range") hs r h
  obtain ⟨b, e1, e2, e3⟩ := markAll_ok (.throws "out_of_range") t' r.f2e.length h3 h5 groups hg
    (List.replicate L.faces.length none) (by rw [List.length_replicate, h8.1])
  refine ⟨L, b, posOf t, posOf t', τ, ?_, h4, h5, h6, h7, h8, h9, by rw [e2, h8.1], ?_, h10, h11, h12⟩
  · rw [poly3, h1]
    simp only [Outcome.bind_ok, e1]
  · intro i hi
    rw [e3 i hi]
    cases lastGroup groups i with
    | some g => rfl
    | none =>
      have := permBelow_lt h5 hi
      simp only
      rw [List.getElem?_replicate, if_pos (by rw [h8.1]; exact this)]

/-- C31, `poly` files in 2D: the same for edges and cells; boundary edges get the number of the last group they
are listed in. -/
theorem c31_poly2 (srt : List Entry → List Entry) (hs : IsSort srt) (r : Raw) (h : r.WF) (groups : List Entry)
    (hg : ∀ g ∈ groups, ∀ i ∈ g.2, i < r.edges.length) :
    ∃ es fs b π σ, poly2 srt r groups = .ok (es, fs, b) ∧
      PermBelow r.edges.length π ∧ PermBelow r.f2e.length σ ∧
      Moved π (fun _ e => e) r.edges es ∧ Moved σ (fun i x => (x.map π, r.f2v.getD i [])) r.f2e fs ∧
      b.length = es.length ∧ (∀ i, i < r.edges.length → b[π i]? = some (lastGroup groups i)) ∧
      es.Pairwise (fun a b => ¬ b < a) ∧ (fs.map Prod.fst).Pairwise (fun a b => ¬ b < a) := by
  obtain ⟨es, fs, t, t', h1, h2, h3, h4, h5, h6, h7, h8, h9, _⟩ := populateFaces_ok (.throws "out_of_range") hs r h
  obtain ⟨b, e1, e2, e3⟩ := markAll_ok (.ub "conv_table[edge_id] out of range") t r.edges.length h2 h4 groups hg
    (List.replicate es.length none) (by rw [List.length_replicate, h6.1])
  refine ⟨es, fs, b, posOf t, posOf t', ?_, h4, h5, h6, h7, by rw [e2, h6.1], ?_, h8, h9⟩
  · rw [poly2, h1]
    simp only [Outcome.bind_ok, e1]
  · intro i hi
    rw [e3 i hi]
    cases lastGroup groups i with
    | some g => rfl
    | none =>
      have := permBelow_lt h4 hi
      simp only
      rw [List.getElem?_replicate, if_pos (by rw [h6.1]; exact this)]

/-- A square cut in two, entities numbered in the file in another order than listed. -/
def exRaw : Raw :=
  ⟨[(4, [0, 2]), (0, [2, 3]), (1, [0, 1]), (2, [1, 2]), (3, [0, 3])], [(1, [1, 2, 4]), (0, [4, 0, 3])],
    [[0, 2, 3], [0, 1, 2]], [], []⟩

theorem exRaw_wf : exRaw.WF := by
  refine ⟨by decide, by decide, by decide, by decide⟩

example : exRaw.WF ∧ poly2 srt exRaw [(7, [1, 2]), (9, [0, 3])] =
    .ok ([[0, 1], [0, 2], [0, 3], [1, 2], [2, 3]], [([0, 3, 1], [0, 1, 2]), ([1, 4, 2], [0, 2, 3])],
      [some 7, none, some 9, some 7, some 9]) := ⟨exRaw_wf, by decide +kernel⟩

example : (⟨exRaw.edges, exRaw.f2e, exRaw.f2v, [(0, [1, 0])], [[0, 1, 2, 3]]⟩ : Raw).WF3 :=
  { exRaw_wf with v := by decide, vf := by decide, vv := by decide }

/-- C31: when no two edges of the file have the same nodes, every edge can be looked up in the loaded mesh and
is found at its new number. -/
theorem c31_lookup (srt : List Entry → List Entry) (hs : IsSort srt) (r : Raw) (h : r.WF3)
    (hd : (r.edges.map Prod.snd).Nodup) (groups : List Entry)
    (hg : ∀ g ∈ groups, ∀ i ∈ g.2, i < r.f2e.length) :
    ∃ L b π, poly3 srt r groups = .ok (L, b) ∧ PermBelow r.edges.length π ∧
      ∀ i e, (i, e) ∈ r.edges → Lookup.lookup L.edges e = .ok (Ident.Ident.mk' (π i)) := by
  obtain ⟨L, t, t', τ, h1, h2, h3, h4, h5, h6, h7, h8, h9, h10, h11, h12, h13⟩ :=
    populate3_ok (.throws "out_of_range") hs r h
  obtain ⟨b, e1, e2, e3⟩ := markAll_ok (.throws "out_of_range") t' r.f2e.length h3 h5 groups hg
    (List.replicate L.faces.length none) (by rw [List.length_replicate, h8.1])
  refine ⟨L, b, posOf t, ?_, h4, ?_⟩
  · rw [poly3, h1]
    simp only [Outcome.bind_ok, e1]
  · intro i e he
    have hnd : L.edges.Nodup := h13.nodup_iff.2 hd
    have hst : L.edges.Pairwise (· < ·) := by
      refine (List.pairwise_and_iff.2 ⟨h10, hnd⟩).imp ?_
      rintro a b ⟨h1, h2⟩
      exact (lt_or_gt_of_ne h2).resolve_right (by convert h1)
    have hget := h7.2 i e he
    have hss : StrictSorted L.edges := by
      rw [show StrictSorted L.edges ↔ _ from Lookup.strictSorted_iff_pairwise L.edges]
      exact hst
    obtain ⟨j, f1, f2⟩ := SingleMesh.found_of_mem L.edges hss e (List.mem_of_getElem? hget)
    have hlt := (List.getElem?_eq_some_iff.1 hget).1
    rw [f1, (List.getElem?_inj hlt hnd).1 (hget.trans f2.symm)]

section
open Verif.Fvca6 Verif.Spec.Fvca6
variable {K : Type}

/-- C32: a file that follows the format (any 16 lines of header) is read completely, and all tables except the
edges get the indices from 0 that were meant. -/
theorem c32_partial (header : List (List (Tok K))) (hh : header.length = 16) (m : Mesh6 K) (h : Fits6 m)
    (rest : List (List (Tok K))) :
    ∃ d, read (header ++ [body m] ++ rest) = .ok (some d) ∧ d.points = m.points ∧ d.v2f = m.v2f ∧ d.v2v = m.v2v ∧
      d.f2e = m.f2e ∧ d.f2v = m.f2v := by
  refine ⟨⟨m.points, m.v2f, m.v2v, m.f2e, m.f2v, m.edges.map fun e => [min e.1 e.2 + 1, max e.1 e.2 + 1]⟩,
    ?_, rfl, rfl, rfl, rfl, rfl⟩
  · rw [Fvca6.read, List.append_assoc, List.drop_append, hh]
    simp only [Nat.sub_self, List.drop_zero, List.singleton_append, List.flatten_append, List.flatten_cons]
    rw [List.drop_of_length_le (by omega)]
    exact readToks_ok m h _

/-- C32 violation: every edge is stored with both nodes one too large; in particular an edge at the last point
refers to a node that does not exist. -/
theorem c32_violation (header : List (List (Tok K))) (hh : header.length = 16) (m : Mesh6 K) (h : Fits6 m)
    (rest : List (List (Tok K))) :
    ∃ d, read (header ++ [body m] ++ rest) = .ok (some d) ∧
      d.edges = m.edges.map (fun e => [min e.1 e.2 + 1, max e.1 e.2 + 1]) ∧
      (m.edges ≠ [] → d.edges ≠ m.edges.map fun e => [min e.1 e.2, max e.1 e.2]) ∧
      (∀ e ∈ m.edges, max e.1 e.2 + 1 = m.points.length → ∃ l ∈ d.edges, d.points.length ∈ l) := by
  refine ⟨⟨m.points, m.v2f, m.v2v, m.f2e, m.f2v, m.edges.map fun e => [min e.1 e.2 + 1, max e.1 e.2 + 1]⟩,
    ?_, rfl, ?_, ?_⟩
  · rw [Fvca6.read, List.append_assoc, List.drop_append, hh]
    simp only [Nat.sub_self, List.drop_zero, List.singleton_append, List.flatten_append, List.flatten_cons]
    rw [List.drop_of_length_le (by omega)]
    exact readToks_ok m h _
  · intro hne heq
    cases hm : m.edges with
    | nil => exact hne hm
    | cons e l =>
      rw [hm] at heq
      simp only [List.map_cons, List.cons.injEq] at heq
      omega
  · intro e he hl
    exact ⟨_, List.mem_map.2 ⟨e, he, rfl⟩, by simp [hl]⟩

/-- A tetrahedron. -/
def exMesh : Mesh6 Nat :=
  ⟨[(0, 0, 0), (1, 0, 0), (0, 1, 0), (0, 0, 1)], [[0, 1, 2, 3]], [[0, 1, 2, 3]],
    [[0, 2, 1], [0, 4, 3], [1, 5, 3], [2, 5, 4]], [[0, 1, 2], [0, 1, 3], [0, 2, 3], [1, 2, 3]],
    [(1, -1), (1, -1), (1, -1), (1, -1)], [(0, 1), (0, 2), (1, 2), (0, 3), (1, 3), (2, 3)]⟩

example : Fits6 exMesh ∧ exMesh.edges ≠ [] ∧ ∃ e ∈ exMesh.edges, max e.1 e.2 + 1 = exMesh.points.length := by
  refine ⟨⟨by decide, ?_, ?_, ?_, ?_, by decide, by decide, by decide⟩, by decide, by decide⟩ <;>
    · unfold Fits; decide

/-- C32: a wrong keyword makes the reader report failure. -/
theorem c32_keyword (header : List (List (Tok K))) (hh : header.length = 16) (w : String) (hw : w ≠ "Vertices")
    (ts : List (Tok K)) : read (header ++ [.word w :: ts]) = .ok none := by
  rw [Fvca6.read, List.drop_append, hh]
  rw [List.drop_of_length_le (by omega)]
  simp [readToks, section_, expect, hw, andThen]

example : ("vertices" : String) ≠ "Vertices" := by decide

end
end Verif.Props.MeshFiles
