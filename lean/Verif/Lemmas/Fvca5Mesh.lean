import Verif.Lemmas.Fvca5
import Verif.Props.Hypercube
/-! The mesh made of the data of an FVCA5 file. -/
namespace Verif.Fvca5
open Verif.MeshFile Verif.MeshTopo Verif.Lookup Verif.Spec Verif.Spec.Fvca5
variable {K : Type}

/-- The sorted edges. -/
def sortedEdges (d : Data K) : List (List Nat) := Sort.sortBy (fun x y => decide (x < y)) (d.edges.map (·.1))

theorem mem_sortedEdges (d : Data K) (e : List Nat) : e ∈ sortedEdges d ↔ e ∈ d.edges.map (·.1) :=
  (Sort.sortBy_perm _ _).mem_iff

theorem sortedEdges_lt (d : Data K) (hd : (d.edges.map (·.1)).Nodup) : (sortedEdges d).Pairwise (· < ·) := by
  have h1 : (sortedEdges d).Pairwise (· ≤ ·) := sortBy_lists_le _
  have h2 : (sortedEdges d).Nodup := (Sort.sortBy_perm _ _).nodup_iff.2 hd
  exact (h1.and h2).imp fun h => lt_of_le_of_ne h.1 h.2

theorem edgeIds_ok (E : List (List Nat)) (hE : E.Pairwise (· < ·)) (l : List (List Nat)) (hl : ∀ e ∈ l, e ∈ E) :
    ∃ ids, edgeIds E l = some ids ∧ ids.map (E[·]?) = l.map some := by
  induction l with
  | nil => exact ⟨[], rfl, rfl⟩
  | cons e l ih =>
    obtain ⟨ids, h1, h2⟩ := ih fun x hx => hl x (List.mem_cons_of_mem _ hx)
    obtain ⟨k, hk⟩ := List.mem_iff_getElem?.1 (hl e (by simp))
    refine ⟨k :: ids, ?_, ?_⟩
    · simp only [edgeIds, (find_iff E hE e k).2 hk, h1]
      rfl
    · simp only [List.map_cons, hk, h2]

/-- The polygon `p` and its entry. -/
def Entry (E : List (List Nat)) (p : Poly) (s : List Nat × List Nat × Nat) : Prop :=
  s.2 = (p.nodes, p.dom) ∧ s.1.map (E[·]?) = p.attached.map some

theorem surfacesOf_ok (E : List (List Nat)) (hE : E.Pairwise (· < ·)) (ps : List Poly)
    (hl : ∀ p ∈ ps, ∀ e ∈ p.attached, e ∈ E) : ∃ ss, surfacesOf E ps = some ss ∧ List.Forall₂ (Entry E) ps ss := by
  induction ps with
  | nil => exact ⟨[], rfl, .nil⟩
  | cons p ps ih =>
    obtain ⟨ss, h1, h2⟩ := ih fun x hx => hl x (List.mem_cons_of_mem _ hx)
    obtain ⟨ids, h3, h4⟩ := edgeIds_ok E hE p.attached (hl p (by simp))
    refine ⟨(ids, p.nodes, p.dom) :: ss, ?_, .cons ⟨rfl, h4⟩ h2⟩
    simp only [surfacesOf, h3, h1, Option.bind_some, Option.map_some]

/-- The edges with the numbers `c`. -/
def edgesAt (E : List (List Nat)) (c : List Nat) : List (List Nat) := c.map (E.getD · [])

theorem edgesAt_entry {E : List (List Nat)} {p : Poly} {s : List Nat × List Nat × Nat} (h : Entry E p s) :
    edgesAt E s.1 = p.attached := by
  have := congrArg (List.map fun o : Option (List Nat) => o.getD []) h.2
  simpa [edgesAt, List.map_map, Function.comp_def, List.getD] using this

theorem forall₂_mem_right {α β : Type} {R : α → β → Prop} {l : List α} {l' : List β} (h : List.Forall₂ R l l') {b : β}
    (hb : b ∈ l') : ∃ a ∈ l, R a b := by
  induction h with
  | nil => simp at hb
  | cons hr _ ih =>
    rcases List.mem_cons.1 hb with rfl | hb
    · exact ⟨_, by simp, hr⟩
    · obtain ⟨a, ha, h⟩ := ih hb
      exact ⟨a, List.mem_cons_of_mem _ ha, h⟩

theorem forall₂_mem_left {α β : Type} {R : α → β → Prop} {l : List α} {l' : List β} (h : List.Forall₂ R l l') {a : α}
    (ha : a ∈ l) : ∃ b ∈ l', R a b := by
  induction h with
  | nil => simp at ha
  | cons hr _ ih =>
    rcases List.mem_cons.1 ha with rfl | ha
    · exact ⟨_, by simp, hr⟩
    · obtain ⟨b, hb, h⟩ := ih ha
      exact ⟨b, List.mem_cons_of_mem _ hb, h⟩

theorem entries_edges (E : List (List Nat)) (ps : List Poly) (ss : List (List Nat × List Nat × Nat))
    (h : List.Forall₂ (Entry E) ps ss) : (ss.map (·.1)).map (edgesAt E) = ps.map (·.attached) := by
  induction h with
  | nil => rfl
  | cons hr _ ih => simp only [List.map_cons, edgesAt_entry hr, ih]

/-- The cells as they are stored. -/
theorem cells_sorted (srt : List (List Nat × List Nat × Nat) → List (List Nat × List Nat × Nat)) (hs : IsSort srt)
    (E : List (List Nat)) (ps : List Poly) (ss : List (List Nat × List Nat × Nat)) (h : List.Forall₂ (Entry E) ps ss)
    (hn : (ps.map (·.attached)).Nodup) : ((srt ss).map (·.1)).Pairwise (· < ·) := by
  have h1 : (ss.map (·.1)).Nodup := by
    rw [← entries_edges E ps ss h] at hn
    exact List.Nodup.of_map _ hn
  have h2 : ((srt ss).map (·.1)).Nodup := (((hs ss).1.map _).nodup_iff).2 h1
  have h3 : ((srt ss).map (·.1)).Pairwise (· ≤ ·) := by
    rw [List.pairwise_map]
    exact (hs ss).2.imp fun h => not_lt.1 h
  exact (h3.and h2).imp fun h => lt_of_le_of_ne h.1 h.2

theorem count_flatMap_nodup {α : Type} {_ : DecidableEq α} (ls : List (List α)) (hn : ∀ l ∈ ls, l.Nodup) (e : α) :
    ls.flatten.count e = (ls.filter fun l => decide (e ∈ l)).length := by
  induction ls with
  | nil => rfl
  | cons l ls ih =>
    rw [List.flatten_cons, List.count_append, ih fun x hx => hn x (List.mem_cons_of_mem _ hx), List.filter_cons]
    by_cases he : e ∈ l
    · rw [List.count_eq_one_of_mem (hn l (by simp)) he]
      simp [he, Nat.add_comm]
    · rw [List.count_eq_zero_of_not_mem he]
      simp [he]

theorem occurrences_polys (srt : List (List Nat × List Nat × Nat) → List (List Nat × List Nat × Nat)) (hs : IsSort srt)
    (E : List (List Nat)) (d : Data K) (ss : List (List Nat × List Nat × Nat)) (h : List.Forall₂ (Entry E) d.polys ss)
    (hd : ∀ p ∈ d.polys, p.attached.Pairwise (· < ·)) (e : List Nat) :
    occurrences ((srt ss).map (·.1)) (edgesAt E) e = polysAt d e := by
  rw [occurrences_perm ((hs ss).1.map _) (edgesAt E) e]
  unfold occurrences polysAt
  rw [List.flatMap_def, entries_edges E d.polys ss h]
  refine (count_flatMap_nodup _ ?_ e).trans ?_
  · intro l hl
    obtain ⟨p, hp, rfl⟩ := List.mem_map.1 hl
    exact (hd p hp).imp fun h => ne_of_lt h
  · rw [List.filter_map, List.length_map]
    exact congrArg List.length (List.filter_congr fun x _ => decide_eq_decide.2 Iff.rfl)

theorem renumber_lists (m : Mesh (List Nat) (List Nat)) (hc : m.cells.Pairwise (· < ·)) (hs : m.faces.Pairwise (· < ·))
    (hn : ∀ c ∈ m.cells, (m.facesOf c).Nodup) (hm : ∀ c ∈ m.cells, ∀ f ∈ m.facesOf c, f ∈ m.faces)
    (h2 : ∀ f, occurrences m.cells m.facesOf f ≤ 2) (hb : m.binfo.length = m.faces.length)
    (num : List Nat → List Nat → Option Nat) :
    ((∀ c f, Props.Hypercube.Exterior m c f → num c f ≠ none) →
      ∃ b, Hypercube.renumber m num = .ok (true, b) ∧ b.length = m.binfo.length ∧
        (∀ (i : Nat) (f c : List Nat) (k : Nat), m.faces[i]? = some f → Props.Hypercube.Exterior m c f → num c f = some k →
          ∃ d, b[i]? = some d ∧ d.isB = true ∧ d.isInt = false ∧ d.id = k) ∧
        (∀ (i : Nat) (f : List Nat), m.faces[i]? = some f → (∀ c, ¬ Props.Hypercube.Exterior m c f) → b[i]? = m.binfo[i]?)) ∧
    ((∃ c f, Props.Hypercube.Exterior m c f ∧ num c f = none) → ∃ b, Hypercube.renumber m num = .ok (false, b)) := by
  have := Props.Hypercube.c34_renumber m ((strictSorted_iff_pairwise _).2 hc) ((strictSorted_iff_pairwise _).2 hs) hn hm
    (by rw [← deq_eq]; exact h2) hb num
  rw [← inst_eq] at this
  exact this

/-- Exactly one cell has the face. -/
theorem exterior_iff (m : Mesh (List Nat) (List Nat)) (hn : ∀ c ∈ m.cells, (m.facesOf c).Nodup) (hc : m.cells.Nodup)
    (f : List Nat) : (∃ c, Props.Hypercube.Exterior m c f) ↔ occurrences m.cells m.facesOf f = 1 := by
  have ho : occurrences m.cells m.facesOf f = (m.cells.filter fun c => decide (f ∈ m.facesOf c)).length := by
    unfold occurrences
    rw [List.flatMap_def]
    refine (count_flatMap_nodup _ ?_ f).trans ?_
    · intro l hl
      obtain ⟨c, hc, rfl⟩ := List.mem_map.1 hl
      exact hn c hc
    · rw [List.filter_map, List.length_map]
      exact congrArg List.length (List.filter_congr fun x _ => decide_eq_decide.2 Iff.rfl)
  rw [ho, List.length_eq_one_iff]
  constructor
  · rintro ⟨c, h1, h2, h3⟩
    refine ⟨c, ?_⟩
    refine List.perm_singleton.1 ((List.perm_ext_iff_of_nodup (hc.filter _) (by simp)).2 fun x => ?_)
    simp only [List.mem_filter, decide_eq_true_eq, List.mem_singleton]
    constructor
    · rintro ⟨hx, hf⟩
      by_contra hne
      exact h3 x ⟨hx, hne, hf⟩
    · rintro rfl
      exact ⟨h1, h2⟩
  · rintro ⟨c, h⟩
    have hm : ∀ x, x ∈ m.cells.filter (fun c => decide (f ∈ m.facesOf c)) ↔ x = c := by
      intro x; rw [h]; simp
    have h1 := (hm c).2 rfl
    simp only [List.mem_filter, decide_eq_true_eq] at h1
    exact ⟨c, h1.1, h1.2, fun x hx => hx.2.1 ((hm x).1 (by simp [hx.1, hx.2.2]))⟩

/-- The mesh with the surfaces `S` and the descriptors `b`. -/
def built (d : Data K) (S : List (List Nat × List Nat × Nat)) (b : List BDesc) : Loaded K where
  points := d.points
  nodes := mkNodes d.points.length
  edges := sortedEdges d
  surfaces := S.map fun x => (x.1, x.2.1)
  boundary := b
  subdomains := S.map fun x => x.2.2

theorem populate_proper (srt : List (List Nat × List Nat × Nat) → List (List Nat × List Nat × Nat)) (hs : IsSort srt)
    (num : List Nat → List Nat → Option Nat) (d : Data K) (hd : Proper d) :
    ∃ m, populate srt num d = .ok (true, m) ∧ MeshOf d num m := by
  have hE := sortedEdges_lt d hd.edges
  have hbE : ∀ e ∈ d.bnd, e ∈ sortedEdges d := fun e he => (mem_sortedEdges d e).2 (hd.bnd e he)
  obtain ⟨ss, hss, hent⟩ := surfacesOf_ok (sortedEdges d) hE d.polys fun p hp e he =>
    (mem_sortedEdges d e).2 (hd.attached p hp e he)
  have hf1 : (flag (sortedEdges d) (d.bnd.map fun e => (e, 0)) (List.replicate (sortedEdges d).length BDesc.default)).1 = true :=
    (flag_replicate _ hE _ (by
      intro x hx
      obtain ⟨f, hf, rfl⟩ := List.mem_map.1 hx
      exact hbE f hf)).1
  have hf2 := flag_zero (sortedEdges d) hE d.bnd hbE
  generalize hinfo : (sortedEdges d).map (fun f => if f ∈ d.bnd then BDesc.mk2 0 true else BDesc.default) = info at hf2
  have hsrt := cells_sorted srt hs (sortedEdges d) d.polys ss hent hd.differ
  have hocc := occurrences_polys srt hs (sortedEdges d) d ss hent hd.sorted
  have hcell : ∀ c ∈ (srt ss).map (·.1), ∃ p ∈ d.polys, edgesAt (sortedEdges d) c = p.attached := by
    intro c hc
    obtain ⟨s, hs', rfl⟩ := List.mem_map.1 hc
    obtain ⟨p, hp, he⟩ := forall₂_mem_right hent ((hs ss).1.mem_iff.1 hs')
    exact ⟨p, hp, edgesAt_entry he⟩
  have hfaces : ∀ c ∈ (srt ss).map (·.1), ∀ f ∈ edgesAt (sortedEdges d) c, f ∈ sortedEdges d := by
    intro c hc f hf
    obtain ⟨p, hp, h⟩ := hcell c hc
    exact (mem_sortedEdges d f).2 (hd.attached p hp f (h ▸ hf))
  have hnod : ∀ c ∈ (srt ss).map (·.1), (edgesAt (sortedEdges d) c).Nodup := by
    intro c hc
    obtain ⟨p, hp, h⟩ := hcell c hc
    rw [h]
    exact (hd.sorted p hp).imp fun h => ne_of_lt h
  have htwo : ∀ f, occurrences ((srt ss).map (·.1)) (edgesAt (sortedEdges d)) f ≤ 2 := fun f => hocc f ▸ hd.two f
  have hil : info.length = (sortedEdges d).length := by rw [← hinfo]; simp
  obtain ⟨b, hb, hbl, hbi⟩ := mark_ok ⟨(srt ss).map (·.1), sortedEdges d, edgesAt (sortedEdges d), info⟩
    ⟨(strictSorted_iff_pairwise _).2 hE, hil⟩ hfaces htwo
  have hbl' : b.length = (sortedEdges d).length := hbl.trans hil
  have hun : ∀ (i : Nat) (e : List Nat) (x : BDesc), (sortedEdges d)[i]? = some e → b[i]? = some x → Unnumbered d e x := by
    intro i e x he hx
    obtain ⟨hi, rfl⟩ := List.getElem?_eq_some_iff.1 he
    obtain ⟨hi', rfl⟩ := List.getElem?_eq_some_iff.1 hx
    have hii : i < info.length := hil ▸ hi
    obtain ⟨h1, h2, _, h4⟩ := hbi i hi hi' hii
    have hin : info[i] = if (sortedEdges d)[i] ∈ d.bnd then BDesc.mk2 0 true else BDesc.default := by
      subst hinfo
      simp
    dsimp only at h1 h2 h4
    rw [hocc] at h1
    unfold Unnumbered
    rw [h4, h1, h2, hin]
    split <;> simp_all [BDesc.mk2, BDesc.default]
  have hext : ∀ b : List BDesc, ∀ f, (∃ c, Props.Hypercube.Exterior (⟨(srt ss).map (·.1), sortedEdges d, edgesAt (sortedEdges d), b⟩ :
      Mesh (List Nat) (List Nat)) c f) ↔ polysAt d f = 1 := by
    intro b f
    have hnd : ((srt ss).map (·.1)).Nodup := hsrt.imp fun h => ne_of_lt h
    rw [exterior_iff ⟨(srt ss).map (·.1), sortedEdges d, edgesAt (sortedEdges d), b⟩ hnod hnd, hocc]
  obtain ⟨r1, r2⟩ := renumber_lists ⟨(srt ss).map (·.1), sortedEdges d, edgesAt (sortedEdges d), b⟩ hsrt hE hnod hfaces htwo
    hbl' num
  have hren : ∃ r, Hypercube.renumber ⟨(srt ss).map (·.1), sortedEdges d, edgesAt (sortedEdges d), b⟩ num = .ok r := by
    by_cases h : ∀ c f, Props.Hypercube.Exterior (⟨(srt ss).map (·.1), sortedEdges d, edgesAt (sortedEdges d), b⟩ :
      Mesh (List Nat) (List Nat)) c f → num c f ≠ none
    · obtain ⟨x, hx, _⟩ := r1 h
      exact ⟨_, hx⟩
    · push Not at h
      obtain ⟨x, hx⟩ := r2 h
      exact ⟨_, hx⟩
  obtain ⟨r, hr⟩ := hren
  have hpop : populate srt num d = .ok (true, built d (srt ss) (if r.1 then r.2 else b)) := by
    unfold populate
    simp only
    rw [show Sort.sortBy (fun x y => decide (x < y)) (d.edges.map (·.1)) = sortedEdges d from rfl]
    rw [if_neg (by rw [hf1]; simp), hf2]
    simp only [hss]
    rw [show (fun c : List Nat => c.map ((sortedEdges d).getD · [])) = edgesAt (sortedEdges d) from rfl]
    simp only [hb, hr, Outcome.bind_ok]
    rfl
  have hmemE : ∀ (c : List Nat) (e : List Nat), c ∈ (srt ss).map (·.1) →
      (some e ∈ c.map ((sortedEdges d)[·]?) ↔ e ∈ edgesAt (sortedEdges d) c) := by
    intro c e hc
    obtain ⟨s, hs', rfl⟩ := List.mem_map.1 hc
    obtain ⟨p, hp, he⟩ := forall₂_mem_right hent ((hs ss).1.mem_iff.1 hs')
    rw [he.2, edgesAt_entry he]
    simp
  have hsurf : ∀ s ∈ (srt ss).map (fun x => (x.1, x.2.1)), s.1 ∈ (srt ss).map (·.1) := by
    intro s hs
    obtain ⟨x, hx, rfl⟩ := List.mem_map.1 hs
    exact List.mem_map_of_mem hx
  have hsurf' : ∀ c ∈ (srt ss).map (·.1), ∃ s ∈ (srt ss).map (fun x => (x.1, x.2.1)), s.1 = c := by
    intro c hc
    obtain ⟨x, hx, rfl⟩ := List.mem_map.1 hc
    exact ⟨_, List.mem_map_of_mem hx, rfl⟩
  have hlen : (srt ss).length = d.polys.length := (hs ss).1.length_eq.trans hent.length_eq.symm
  have hiss : ∀ j s p, (srt ss)[j]? = some s → Entry (sortedEdges d) p s →
      IsSurface (built d (srt ss) (if r.1 then r.2 else b)) j p := by
    intro j s p hj he
    refine ⟨(s.1, s.2.1), ?_, ?_, ?_, he.2⟩
    · simp [built, hj]
    · rw [he.1]
    · simp [built, hj, he.1]
  refine ⟨_, hpop, rfl, rfl, hE, mem_sortedEdges d, ?_, ?_, ?_, ?_, ?_, ?_, ?_, ?_⟩
  · simpa [built, List.map_map, Function.comp_def] using hsrt
  · simpa [built] using hlen
  · simpa [built] using hlen
  · intro p hp
    obtain ⟨s, hs', he⟩ := forall₂_mem_left hent hp
    obtain ⟨j, hj⟩ := List.mem_iff_getElem?.1 ((hs ss).1.mem_iff.2 hs')
    exact ⟨j, hiss j s p hj he⟩
  · intro j hj
    have hj' : j < (srt ss).length := hlen ▸ hj
    obtain ⟨p, hp, he⟩ := forall₂_mem_right hent ((hs ss).1.mem_iff.1 (List.getElem_mem hj'))
    exact ⟨p, hp, hiss j _ p (List.getElem?_eq_getElem hj') he⟩
  · dsimp only [built]
    by_cases h : ∀ c f, Props.Hypercube.Exterior (⟨(srt ss).map (·.1), sortedEdges d, edgesAt (sortedEdges d), b⟩ :
      Mesh (List Nat) (List Nat)) c f → num c f ≠ none
    · obtain ⟨x, hx, hxl, _⟩ := r1 h
      obtain rfl : r = (true, x) := by simpa using hr.symm.trans hx
      simpa using hxl.trans hbl'
    · push Not at h
      obtain ⟨x, hx⟩ := r2 h
      obtain rfl : r = (false, x) := by simpa using hr.symm.trans hx
      simpa using hbl'
  · intro hnum i e x he hx
    dsimp only [built] at hnum he hx
    obtain ⟨y, hy, _, hy1, hy2⟩ := r1 (by
      intro c f hcf
      obtain ⟨s, hs1, hs2⟩ := hsurf' c hcf.1
      have := hnum s hs1 f
      rw [hs2] at this
      exact this ((hmemE c f hcf.1).2 hcf.2.1) ((hext b f).1 ⟨c, hcf⟩))
    obtain rfl : r = (true, y) := by simpa using hr.symm.trans hy
    rw [if_pos rfl] at hx
    constructor
    · intro h1
      obtain ⟨c, hc⟩ := (hext b e).2 h1
      obtain ⟨s, hs1, hs2⟩ := hsurf' c hc.1
      have hne := hnum s hs1 e (hs2 ▸ (hmemE c e hc.1).2 hc.2.1) h1
      obtain ⟨k, hk⟩ := Option.ne_none_iff_exists'.1 hne
      obtain ⟨z, hz, hz1, hz2, hz3⟩ := hy1 i e c k he hc (hs2 ▸ hk)
      obtain rfl : z = x := by
        dsimp only at hx
        rw [hz] at hx
        simpa using hx
      exact ⟨hz1, hz2, s, hs1, hs2 ▸ (hmemE c e hc.1).2 hc.2.1, by rw [hk, hz3]⟩
    · intro h1
      have := hy2 i e he fun c hc => h1 ((hext b e).1 ⟨c, hc⟩)
      exact hun i e x he (this ▸ hx)
  · rintro ⟨s, hs1, f, hf, h1, hn⟩ i e x he hx
    dsimp only [built] at hs1 hf he hx
    have hc : Props.Hypercube.Exterior (⟨(srt ss).map (·.1), sortedEdges d, edgesAt (sortedEdges d), b⟩ :
      Mesh (List Nat) (List Nat)) s.1 f := by
      obtain ⟨c, hc⟩ := (hext b f).2 h1
      have := Props.Hypercube.exterior_unique _ c s.1 f hc (hsurf s hs1) ((hmemE _ f (hsurf s hs1)).1 hf)
      exact this ▸ hc
    obtain ⟨y, hy⟩ := r2 ⟨s.1, f, hc, hn⟩
    obtain rfl : r = (false, y) := by simpa using hr.symm.trans hy
    exact hun i e x he (by simpa using hx)

end Verif.Fvca5
