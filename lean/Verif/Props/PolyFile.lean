import Verif.Lemmas.PolyFileOrder
import Verif.Props.MeshFiles
/-!
C74: reading `poly` files. C75: the order in which a `poly` file lists its entities.
-/
namespace Verif.Props.PolyFile
open Verif Verif.PolyFile Verif.Spec.PolyFile
variable {K : Type}

/-- C74: a complete file, with any sections of the format in any order, is read to exactly its contents; a
repeated section replaces the previous one, and whatever follows the end marker is ignored. -/
theorem c74_contents_partial (d : Nat) (l : List (Sec K)) (hv : ∀ x ∈ l, Valid d x) (rest : List (Tok K)) (fuel : Nat)
    (hf : l.length < fuel) :
    read d fuel (text l ++ .word "**EndMesh" :: rest) = .ok (some (true, content l)) := by
  obtain ⟨s, h1, h2, h3, -, -⟩ := read_text d l hv (.word "**EndMesh" :: rest)
  obtain ⟨k, rfl⟩ : ∃ k, fuel = l.length + (k + 1) := ⟨fuel - l.length - 1, by omega⟩
  rw [h1 (k + 1)]
  have hc : "**EndMesh" ∉ cellKw d := by
    unfold cellKw; split <;> decide
  have hg : "**EndMesh" ∉ grpKw d := by
    unfold grpKw; split <;> decide
  have : step d s = .ok (.inr (true, s.data)) := by
    simp [step, h3, nextKeyword, hc, hg]
  rw [loop, this, ← h2]; rfl

/-- C74: another dimension is refused. -/
theorem c74_dimension (d d' : Nat) (hd : d' ≠ d) (l : List (Sec K)) (hv : ∀ x ∈ l, Valid d x) (rest : List (Tok K))
    (fuel : Nat) (hf : l.length < fuel) :
    read d fuel (text l ++ write (.dim d') ++ rest) = .ok (some (false, content l)) := by
  obtain ⟨s, h1, h2, h3, -, -⟩ := read_text d l hv (write (.dim d') ++ rest)
  obtain ⟨k, rfl⟩ : ∃ k, fuel = l.length + (k + 1) := ⟨fuel - l.length - 1, by omega⟩
  rw [List.append_assoc, h1 (k + 1)]
  have : step d s = .ok (.inr (false, s.data)) := by
    simp [step, h3, write, nextKeyword, num, hd]
  rw [loop, this, ← h2]; rfl

/-- C74: an unknown keyword is refused. -/
theorem c74_keyword (d : Nat) (w : String)
    (hw : w ∉ ["*Dimension", "*Version", "*Nodes", "**EndMesh"] ++ cellKw d ++ grpKw d) (l : List (Sec K))
    (hv : ∀ x ∈ l, Valid d x) (rest : List (Tok K)) (fuel : Nat) (hf : l.length < fuel) :
    read d fuel (text l ++ .word w :: rest) = .ok (some (false, content l)) := by
  obtain ⟨s, h1, h2, h3, -, -⟩ := read_text d l hv (.word w :: rest)
  obtain ⟨k, rfl⟩ : ∃ k, fuel = l.length + (k + 1) := ⟨fuel - l.length - 1, by omega⟩
  rw [h1 (k + 1)]
  simp only [List.mem_append, List.mem_cons, List.not_mem_nil, or_false, not_or] at hw
  obtain ⟨⟨⟨a1, a2, a3, a4⟩, a5⟩, a6⟩ := hw
  have : step d s = .ok (.inr (false, s.data)) := by
    simp [step, h3, nextKeyword, a1, a2, a3, a4, a5, a6]
  rw [loop, this, ← h2]; rfl

/-- C74: a file that does not start with the begin marker is refused, an empty one too. -/
theorem c74_start (d fuel : Nat) (ts : List (Tok K)) (h : ∀ r, ts ≠ .word "**BeginMesh" :: r) :
    ∃ x, read d fuel ts = .ok (some (false, x)) := by
  refine ⟨⟨[], fun _ => [], fun _ => []⟩, ?_⟩
  unfold PolyFile.read
  rw [if_pos]
  cases ts with
  | nil => simp [nextKeyword]
  | cons t ts =>
    cases t with
    | word w =>
      intro e
      simp only [nextKeyword] at e
      exact h ts (by rw [e])
    | _ => simp [nextKeyword]

/-- C74 is violated by every file whose end marker is missing after one or more sections. If the last section has
no entries, the reader never returns. -/
theorem c74_hang_violation (d : Nat) (l : List (Sec K)) (hv : ∀ x ∈ l, Valid d x) (x : Sec K)
    (hl : l.getLast? = some x) (hi : Idle x) (fuel : Nat) : read d fuel (text l) = .ok none := by
  obtain ⟨s, h1, h2, h3, h4, -⟩ := read_text d l hv []
  simp only [List.append_nil] at h1
  refine loop_running d l l.length fuel ?_
  rw [Nat.add_comm, h1 fuel]
  exact loop_idle d x (hv x (List.mem_of_getLast? hl)) hi fuel s (h4 x hl) h3

/-- C74, violated: if the last section has entries, the reader starts it again at the end of the file with the
number of entries it still has in hand, and uses uninitialised variables. -/
theorem c74_ub_violation (d : Nat) (l : List (Sec K)) (hv : ∀ x ∈ l, Valid d x) (x : Sec K)
    (hl : l.getLast? = some x) (hi : ¬ Idle x) (fuel : Nat) (hf : l.length < fuel) :
    read d fuel (text l) = .ub "uninitialised" := by
  obtain ⟨s, h1, h2, h3, h4, -⟩ := read_text d l hv []
  simp only [List.append_nil] at h1
  obtain ⟨k, rfl⟩ : ∃ k, fuel = l.length + (k + 1) := ⟨fuel - l.length - 1, by omega⟩
  rw [h1 (k + 1)]
  exact loop_ub d x (hv x (List.mem_of_getLast? hl)) hi k s (h4 x hl) h3

/-- C74: with nothing after the begin marker the file is refused, so truncation there is harmless. -/
theorem c74_empty (d fuel : Nat) : read d (fuel + 1) (text ([] : List (Sec K))) = .ok (some (false, content [])) := by
  have hc : "**BeginMesh" ∉ cellKw d := by
    unfold cellKw; split <;> decide
  have hg : "**BeginMesh" ∉ grpKw d := by
    unfold grpKw; split <;> decide
  simp [PolyFile.read, text, nextKeyword, loop, step, hc, hg, content, Outcome.bind]

/-- A file of one triangle. -/
def exSecs : List (Sec Nat) :=
  [.version 2, .dim 2, .nodes [(0, 0, 0, 0), (1, 1, 0, 0), (2, 0, 1, 0)], .cells "*Edges->Nodes" [(0, [0, 1]), (1, [1, 2]), (2, [2, 0])],
    .cells "*Faces->Nodes" [(0, [0, 1, 2])], .cells "*Faces->Edges" [(0, [0, 1, 2])], .groups "*Edges->Groups" [("left", 3, [2])]]

theorem exSecs_valid : ∀ x ∈ exSecs, Valid 2 x := by
  simp only [exSecs, List.forall_mem_cons, Valid]
  refine ⟨trivial, trivial, trivial, by decide, by decide, by decide, by decide, by simp⟩

example : (content exSecs).cells "*Edges->Nodes" = [(0, [0, 1]), (1, [1, 2]), (2, [2, 0])] ∧
    (content exSecs).groups "*Edges->Groups" = [(3, [2])] ∧ (content exSecs).vts.length = 3 := by
  refine ⟨by decide, by decide, by decide⟩

/-- Cut after the groups. -/
example (fuel : Nat) (hf : 7 < fuel) : read 2 fuel (text exSecs) = .ub "uninitialised" :=
  c74_ub_violation 2 exSecs exSecs_valid _ rfl (by simp [Idle]) fuel hf

/-- Cut after the version or after the dimension. -/
example (fuel : Nat) : read 2 fuel (text (exSecs.take 2)) = .ok none :=
  c74_hang_violation 2 _ (fun x hx => exSecs_valid x (List.mem_of_mem_take hx)) (.dim 2) rfl trivial fuel

/-! ### Order of the entities -/
open Verif.Renumber hiding Entry

/-- C75: when no two edges, faces or volumes coincide, the order in which edges, faces (by edges) and volumes (by
faces) are listed does not matter: the loaded mesh and its boundary are the same. -/
theorem c75_entities_partial (srt : List Entry → List Entry) (hs : IsSort srt) (r r' : Raw) (h : r.WF3)
    (he : r.edges.Perm r'.edges) (hf : r.f2e.Perm r'.f2e) (hv : r.v2f.Perm r'.v2f)
    (hfv : r'.f2v = r.f2v) (hvv : r'.v2v = r.v2v)
    (ne : (r.edges.map Prod.snd).Nodup) (nf : (r.f2e.map Prod.snd).Nodup) (nv : (r.v2f.map Prod.snd).Nodup)
    (groups : List Entry) : poly3 srt r' groups = poly3 srt r groups := by
  have hes : srt r'.edges = srt r.edges := (sort_order hs he ne).symm
  have hl1 : (srt r.edges).length = r.edges.length := (hs _).1.length_eq
  obtain ⟨t, a1, a2, a3, a4⟩ := fill_perm (.throws "out_of_range") (srt r.edges) (resize [] (srt r.edges).length)
    (resize_length _ _) (by rw [hl1]; exact ((hs _).1.map Prod.fst).trans h.e)
  rw [hl1] at a2 a3
  have e1 := relinkAll_ok t r.f2e (by rw [a2]; exact h.fe)
  have e1' := relinkAll_ok t r'.f2e (by rw [a2]; exact fun x hx => h.fe x (hf.mem_iff.2 hx))
  have hfs := sort_order hs (hf.map fun x => (x.1, x.2.map (posOf t))) (relinked_nodup t _ a3 _ h.fe nf)
  have key : populateFaces (.throws "out_of_range") srt r' = populateFaces (.throws "out_of_range") srt r := by
    simp only [populateFaces, hes, a1, Outcome.bind_ok, e1, e1', hfv]
    rw [← hfs]
  obtain ⟨es, fs, u, u', h1, h2, h3, h4, h5, -⟩ := populateFaces_ok (.throws "out_of_range") hs r h.toWF
  have g1 := relinkAll_ok u' r.v2f (by rw [h3]; exact h.vf)
  have g1' := relinkAll_ok u' r'.v2f (by rw [h3]; exact fun x hx => h.vf x (hv.mem_iff.2 hx))
  have hvs := sort_order hs (hv.map fun x => (x.1, x.2.map (posOf u'))) (relinked_nodup u' _ h5 _ h.vf nv)
  simp only [poly3, populate3, key, h1, Outcome.bind_ok, g1, g1', hvv]
  rw [← hvs]

/-- C75, in 2D. -/
theorem c75_cells_partial (srt : List Entry → List Entry) (hs : IsSort srt) (r r' : Raw) (h : r.WF)
    (he : r.edges.Perm r'.edges) (hf : r.f2e.Perm r'.f2e) (hfv : r'.f2v = r.f2v)
    (ne : (r.edges.map Prod.snd).Nodup) (nf : (r.f2e.map Prod.snd).Nodup)
    (groups : List Entry) : poly2 srt r' groups = poly2 srt r groups := by
  have hes : srt r'.edges = srt r.edges := (sort_order hs he ne).symm
  have hl1 : (srt r.edges).length = r.edges.length := (hs _).1.length_eq
  obtain ⟨t, a1, a2, a3, a4⟩ := fill_perm (.throws "out_of_range") (srt r.edges) (resize [] (srt r.edges).length)
    (resize_length _ _) (by rw [hl1]; exact ((hs _).1.map Prod.fst).trans h.e)
  rw [hl1] at a2 a3
  have e1 := relinkAll_ok t r.f2e (by rw [a2]; exact h.fe)
  have e1' := relinkAll_ok t r'.f2e (by rw [a2]; exact fun x hx => h.fe x (hf.mem_iff.2 hx))
  have hfs := sort_order hs (hf.map fun x => (x.1, x.2.map (posOf t))) (relinked_nodup t _ a3 _ h.fe nf)
  have key : populateFaces (.throws "out_of_range") srt r' = populateFaces (.throws "out_of_range") srt r := by
    simp only [populateFaces, hes, a1, Outcome.bind_ok, e1, e1', hfv]
    rw [← hfs]
  simp only [poly2, key]

open Verif.Props.MeshFiles in
example : exRaw.WF ∧ exRaw.edges.Perm exRaw.edges.reverse ∧ (exRaw.edges.map Prod.snd).Nodup ∧
    (exRaw.f2e.map Prod.snd).Nodup :=
  ⟨exRaw_wf, (List.reverse_perm _).symm, by decide, by decide⟩

/-- C75: the points are right when the nodes are listed in the order of their numbers. -/
theorem c75_nodes_partial (vts : List (Nat × K × K × K)) (hv : vts.map Prod.fst = List.range vts.length)
    (i : Nat) (p : K × K × K) (hp : (i, p) ∈ vts) : (populateNodes vts).1[i]? = some p := by
  obtain ⟨k, hk⟩ := List.getElem?_of_mem hp
  have hk' : k < vts.length := (List.getElem?_eq_some_iff.1 hk).1
  have h1 : (vts.map Prod.fst)[k]? = some i := by simp [hk]
  rw [hv, List.getElem?_range hk'] at h1
  cases h1
  simp [populateNodes, hk]

example : ([(0, 5, 5, 5), (1, 6, 6, 6)] : List (Nat × Nat × Nat × Nat)).map Prod.fst = List.range 2 := by decide

/-- C75 is violated for nodes: whenever the nodes of a file are numbered `0 … n-1` but listed in another order, and
have different coordinates, some node gets the coordinates of another one. -/
theorem c75_nodes_violation (vts : List (Nat × K × K × K)) (hv : (vts.map Prod.fst).Perm (List.range vts.length))
    (ho : vts.map Prod.fst ≠ List.range vts.length) (hd : (vts.map Prod.snd).Nodup) :
    ∃ i p, (i, p) ∈ vts ∧ (populateNodes vts).1[i]? ≠ some p := by
  by_contra hcon
  push Not at hcon
  apply ho
  apply List.ext_getElem
  · simp
  · intro k h1 h2
    simp only [List.length_map] at h1
    simp only [List.getElem_map, List.getElem_range]
    have hm := hcon vts[k].1 vts[k].2 (List.getElem_mem h1)
    have hlt : vts[k].1 < vts.length :=
      List.mem_range.1 (hv.mem_iff.1 (List.mem_map.2 ⟨vts[k], List.getElem_mem h1, rfl⟩))
    simp only [populateNodes, List.getElem?_map, List.getElem?_eq_getElem hlt, Option.map_some, Option.some.injEq] at hm
    have := (List.Nodup.getElem_inj_iff hd (i := vts[k].1) (j := k) (hi := by simpa using hlt)
      (hj := by simpa using h1)).1 (by simpa using hm)
    exact this

example : ∃ vts : List (Nat × Nat × Nat × Nat), (vts.map Prod.fst).Perm (List.range vts.length) ∧
    vts.map Prod.fst ≠ List.range vts.length ∧ (vts.map Prod.snd).Nodup :=
  ⟨[(1, 5, 5, 5), (0, 6, 6, 6)], by decide, by decide, by decide⟩

/-- C75 is violated for the vertices of faces: the square cut in two of `exRaw`, with the two lines of
`*Faces->Nodes` swapped, loads as a mesh in which a triangle with edges `01, 12, 02` has the points `0, 2, 3`. -/
theorem c75_faces_violation :
    let file : List Entry := [(1, [0, 1, 2]), (0, [0, 2, 3])]
    let file' : List Entry := [(0, [0, 2, 3]), (1, [0, 1, 2])]
    let load := fun (f2v : List Entry) => poly2 MeshFiles.srt { MeshFiles.exRaw with f2v := f2v.map Prod.snd } []
    file.Perm file' ∧
    load file' = .ok ([[0, 1], [0, 2], [0, 3], [1, 2], [2, 3]], [([0, 3, 1], [0, 1, 2]), ([1, 4, 2], [0, 2, 3])],
      [none, none, none, none, none]) ∧
    load file = .ok ([[0, 1], [0, 2], [0, 3], [1, 2], [2, 3]], [([0, 3, 1], [0, 2, 3]), ([1, 4, 2], [0, 1, 2])],
      [none, none, none, none, none]) := by
  refine ⟨by decide, by decide +kernel, by decide +kernel⟩

end Verif.Props.PolyFile
