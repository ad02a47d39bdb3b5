import Verif.Lemmas.GmshAngle
/-!
Sorting by angles, triangles around a vertex and the elements of a mesh for GMSH.
-/
noncomputable section
namespace Verif.GmshOut
open Verif Verif.Spec Verif.Earcut

/-- The inner loop finds the position of a smallest angle. -/
theorem findMin_spec (f : Nat → ℝ) : ∀ (rs : List Nat) (j : Nat) (v : ℝ) (im : Nat),
    (findMin f rs j v im = im ∧ ∀ r ∈ rs, v ≤ f r) ∨
    ∃ k, findMin f rs j v im = j + k ∧ k < rs.length ∧ f (rs.getD k 0) < v ∧ ∀ r ∈ rs, f (rs.getD k 0) ≤ f r := by
  intro rs
  induction rs with
  | nil => intro j v im; left; simp [findMin]
  | cons r rs ih =>
    intro j v im
    unfold findMin
    split
    · rename_i h
      right
      rcases ih (j + 1) (f r) j with ⟨h1, h2⟩ | ⟨k, h1, h2, h3, h4⟩
      · refine ⟨0, by simpa using h1, by simp, by simpa using h, fun x hx => ?_⟩
        rcases List.mem_cons.1 hx with rfl | hx
        · simp
        · simpa using h2 x hx
      · refine ⟨k + 1, by rw [h1]; omega, by simpa using h2, ?_, fun x hx => ?_⟩
        · rw [List.getD_cons_succ]; exact lt_trans h3 h
        · rw [List.getD_cons_succ]
          rcases List.mem_cons.1 hx with rfl | hx
          · exact h3.le
          · exact h4 x hx
    · rename_i h
      rcases ih (j + 1) v im with ⟨h1, h2⟩ | ⟨k, h1, h2, h3, h4⟩
      · left
        refine ⟨h1, fun x hx => ?_⟩
        rcases List.mem_cons.1 hx with rfl | hx
        · exact not_lt.1 h
        · exact h2 x hx
      · right
        refine ⟨k + 1, by rw [h1]; omega, by simpa using h2, ?_, fun x hx => ?_⟩
        · rw [List.getD_cons_succ]; exact h3
        · rw [List.getD_cons_succ]
          rcases List.mem_cons.1 hx with rfl | hx
          · exact le_trans h3.le (not_lt.1 h)
          · exact h4 x hx

theorem set_perm {k : Nat} {rs : List Nat} (h : k < rs.length) (r : Nat) :
    (rs.getD k 0 :: rs.set k r).Perm (r :: rs) := by
  induction rs generalizing k with
  | nil => simp at h
  | cons a rs ih =>
    cases k with
    | zero => simpa using List.Perm.swap r a rs
    | succ k =>
      rw [List.getD_cons_succ, List.set_cons_succ]
      have h' := ih (k := k) (by simpa using h)
      exact ((List.Perm.swap a _ _).trans (h'.cons a)).trans (List.Perm.swap r a rs)

theorem selSort_spec (f : Nat → ℝ) : ∀ (m : Nat) (l : List Nat), l.length ≤ m →
    (selSort f m l).Perm l ∧ (selSort f m l).Pairwise fun a b => f a ≤ f b := by
  intro m
  induction m with
  | zero =>
    intro l hl
    have : l = [] := List.length_eq_zero_iff.1 (by omega)
    subst this
    simp [selSort]
  | succ m ih =>
    intro l hl
    cases l with
    | nil => simp [selSort]
    | cons r rs =>
      have hrs : rs.length ≤ m := by simpa using hl
      unfold selSort
      rcases findMin_spec f rs 1 (f r) 0 with ⟨h1, h2⟩ | ⟨k, h1, h2, h3, h4⟩
      · rw [h1]
        obtain ⟨p, s⟩ := ih rs hrs
        refine ⟨p.cons r, List.pairwise_cons.2 ⟨fun a ha => h2 a (p.mem_iff.1 ha), s⟩⟩
      · rw [h1, Nat.add_comm 1 k]
        obtain ⟨p, s⟩ := ih (rs.set k r) (by simpa using hrs)
        have hp := set_perm h2 r
        refine ⟨(p.cons _).trans hp, List.pairwise_cons.2 ⟨fun a ha => ?_, s⟩⟩
        have ha' : a ∈ r :: rs := hp.mem_iff.1 (List.mem_cons_of_mem _ (p.mem_iff.1 ha))
        rcases List.mem_cons.1 ha' with rfl | ha'
        · exact h3.le
        · exact h4 a ha'

/-- The point of the plane. -/
def pt (n : GNode) : P2 ℝ := ⟨n.coor.x, n.coor.y⟩

theorem mean_eq (l : List GNode) : mean l = mean2 (l.map pt) := by
  unfold mean mean2
  simp only [List.map_map, List.length_map]
  rfl

theorem mean2_perm {p q : List (P2 ℝ)} (h : p.Perm q) : mean2 p = mean2 q := by
  unfold mean2
  rw [(h.map P2.x).sum_eq, (h.map P2.y).sum_eq, h.length_eq]

theorem pick_range (l : List GNode) : pick l (List.range l.length) = l := by
  unfold pick
  apply List.ext_getElem
  · simp
  · intro i h1 h2
    simp at h1
    simp [h1]

/-- The nodes sorted by `sort_nodes_2D`: all of them, by angles around the mean. -/
theorem sorted_spec (l : List GNode) : (pick l (sortNodes2D l)).Perm l ∧
    (pick l (sortNodes2D l)).Pairwise fun a b => ang (mean2 (l.map pt)) (pt a) ≤ ang (mean2 (l.map pt)) (pt b) := by
  obtain ⟨p, s⟩ := selSort_spec (fun i => angle (mean l) (l.getD i ⟨0, ⟨0, 0, 0⟩⟩).coor) l.length
    (List.range l.length) (by simp)
  constructor
  · have := p.map fun i => l.getD i ⟨0, ⟨0, 0, 0⟩⟩
    refine List.Perm.trans this ?_
    exact List.Perm.of_eq (pick_range l)
  · unfold pick
    rw [List.pairwise_map]
    refine s.imp fun {a b} h => ?_
    rw [← mean_eq]
    exact h

/-- Sorting the nodes of a convex polygon gives its boundary, counter-clockwise. -/
theorem sorted_ring {l : List GNode} {q : List (P2 ℝ)} (hp : (l.map pt).Perm q) (hl : TurnsLeft q) (hn : q.Nodup)
    (hs : 0 < shoelace q) : ∃ k, (pick l (sortNodes2D l)).map pt = q.rotate k := by
  obtain ⟨k, hk⟩ := ring_sorted hl hn hs
  obtain ⟨p, s⟩ := sorted_spec l
  rw [mean2_perm hp] at s
  refine ⟨k, ?_⟩
  have hperm : ((pick l (sortNodes2D l)).map pt).Perm (q.rotate k) :=
    ((p.map pt).trans hp).trans (List.rotate_perm q k).symm
  have hinj : ∀ a ∈ q.rotate k, ∀ b ∈ q.rotate k, ang (mean2 q) a = ang (mean2 q) b → a = b := by
    have key : ∀ r : List (P2 ℝ), r.Pairwise (fun a b => ang (mean2 q) a < ang (mean2 q) b) →
        ∀ a ∈ r, ∀ b ∈ r, ang (mean2 q) a = ang (mean2 q) b → a = b := by
      intro r
      induction r with
      | nil => intro _ a ha; simp at ha
      | cons x r ih =>
        intro h a ha b hb e
        obtain ⟨h1, h2⟩ := List.pairwise_cons.1 h
        rcases List.mem_cons.1 ha with rfl | ha'
        · rcases List.mem_cons.1 hb with rfl | hb'
          · rfl
          · exact absurd e (h1 b hb').ne
        · rcases List.mem_cons.1 hb with rfl | hb'
          · exact absurd e.symm (h1 a ha').ne
          · exact ih h2 a ha' b hb' e
    exact key _ hk
  refine List.Perm.eq_of_pairwise (le := fun a b => ang (mean2 q) a ≤ ang (mean2 q) b) (fun a b ha hb h1 h2 => ?_)
    (List.pairwise_map.2 s) (hk.imp fun h => h.le) hperm
  exact hinj a (hperm.mem_iff.1 ha) b hb (le_antisymm h1 h2)

/-- The triangles around the first vertex. -/
def fan {α : Type} : List α → List (α × α × α)
  | n :: a :: b :: rest => (n, a, b) :: fan (n :: b :: rest)
  | _ => []
termination_by l => l.length

theorem fan_mem {α : Type} : ∀ (m : Nat) (l : List α), l.length ≤ m → ∀ t ∈ fan l, t.1 ∈ l ∧ t.2.1 ∈ l ∧ t.2.2 ∈ l := by
  intro m
  induction m with
  | zero =>
    intro l hl t ht
    have : l = [] := List.length_eq_zero_iff.1 (by omega)
    subst this
    simp [fan] at ht
  | succ m ih =>
    intro l hl t ht
    match l with
    | [] => simp [fan] at ht
    | [_] => simp [fan] at ht
    | [_, _] => simp [fan] at ht
    | n :: a :: b :: rest =>
      rw [fan] at ht
      rcases List.mem_cons.1 ht with rfl | ht
      · simp
      · have := ih (n :: b :: rest) (by simp at hl ⊢; omega) t ht
        have hsub : ∀ x, x ∈ n :: b :: rest → x ∈ n :: a :: b :: rest := by
          intro x hx
          simp only [List.mem_cons] at hx ⊢
          tauto
        exact ⟨hsub _ this.1, hsub _ this.2.1, hsub _ this.2.2⟩

/-- A point off the lines inside a convex ring is in exactly one triangle around the first vertex. -/
theorem fan_good : ∀ (m : Nat) (r : List (Node ℝ)), r.length ≤ m → 2 ≤ r.length → Good r →
    ∀ x, Off r x → ringAll (fun u v => 0 < turn u.p v.p x) r → cnt (fan r) x = 1 := by
  intro m
  induction m with
  | zero => intro r h1 h2; omega
  | succ m ih =>
    intro r hm hl hG x hx hr
    match r, hl with
    | [a, b], _ =>
      exfalso
      simp only [ringAll, List.cons_append, List.nil_append, pathAll, and_true] at hr
      have : turn b.p a.p x = -turn a.p b.p x := by unfold turn; ring
      linarith [hr.1, hr.2]
    | a :: b :: c :: rest, _ =>
      have hcut : Good (a :: c :: rest) := hG.sub (List.Sublist.cons_cons a (List.sublist_cons_self b _))
      obtain ⟨h1, h2, h3⟩ := (ringAll_cut _ a b c rest).1 hr
      have hneg : turn c.p a.p x = -turn a.p c.p x := by unfold turn; ring
      have hoff : Off (a :: c :: rest) x := by
        have hsub : ∀ {x}, x ∈ a :: c :: rest → x ∈ a :: b :: c :: rest := by
          intro x hx
          simp only [List.mem_cons] at hx ⊢
          tauto
        exact fun u hu v hv => hx u (hsub hu) v (hsub hv)
      have hac : turn a.p c.p x ≠ 0 := hx a (by simp) c (by simp) ((List.pairwise_cons.1 hG.dist).1 c (by simp))
      rw [fan]
      rcases lt_or_gt_of_ne hac with hlt | hgt
      · have ht : InTriangle (triP (a, b, c)) x := ⟨h1, h2, by
          show 0 < turn c.p a.p x
          rw [hneg]; linarith⟩
        have h0 : cnt (fan (a :: c :: rest)) x = 0 := by
          rw [cnt, List.length_eq_zero_iff, List.filter_eq_nil_iff]
          intro t ht' hi
          rw [decide_eq_true_iff] at hi
          obtain ⟨m1, m2, m3⟩ := fan_mem _ _ le_rfl t ht'
          have := outside_none hcut (by simp) hoff m1 m2 m3 hi
          rw [ringAll] at this
          have := this.1
          linarith
        have e : cnt ((a, b, c) :: fan (a :: c :: rest)) x = cnt (fan (a :: c :: rest)) x + 1 := by
          simp only [cnt, List.filter_cons, ht, decide_true, if_true, List.length_cons]
        rw [e, h0]
      · have ht : ¬ InTriangle (triP (a, b, c)) x := fun h => by
          have h4 : 0 < turn c.p a.p x := h.2.2
          rw [hneg] at h4; linarith
        have e : cnt ((a, b, c) :: fan (a :: c :: rest)) x = cnt (fan (a :: c :: rest)) x := by
          simp only [cnt, List.filter_cons, ht, decide_false, Bool.false_eq_true, if_false]
        rw [e]
        refine ih (a :: c :: rest) (by simp at hm ⊢; omega) (by simp) hcut x hoff ?_
        exact ⟨hgt, h3⟩

theorem fan_map {α β : Type} (f : α → β) : ∀ (m : Nat) (l : List α), l.length ≤ m →
    fan (l.map f) = (fan l).map fun t => (f t.1, f t.2.1, f t.2.2) := by
  intro m
  induction m with
  | zero =>
    intro l hl
    have : l = [] := List.length_eq_zero_iff.1 (by omega)
    subst this
    simp [fan]
  | succ m ih =>
    intro l hl
    match l with
    | [] => simp [fan]
    | [_] => simp [fan]
    | [_, _] => simp [fan]
    | n :: a :: b :: rest =>
      have := ih (n :: b :: rest) (by simp at hl ⊢; omega)
      simp only [List.map_cons] at this ⊢
      rw [fan, fan, this]
      rfl

/-- The triangles of a convex polygon around a vertex tile it. -/
theorem fan_tiles {q : List (P2 ℝ)} (hl : TurnsLeft q) (hn : q.Nodup) (hs : 0 < shoelace q) (k : Nat) :
    Tiles (fan (q.rotate k)) q := by
  have h3 := length3 hs.ne'
  have hG := (good_of hl hn).rotate k
  have hlen : ((nodesOf q).rotate k).length = q.length := by
    rw [List.length_rotate, ← List.length_map (f := (·.p)), nodesOf_p]
  have he : q.rotate k = ((nodesOf q).rotate k).map (·.p) := by rw [List.map_rotate, nodesOf_p]
  have hf : fan (q.rotate k) = (fan ((nodesOf q).rotate k)).map triP := by rw [he, fan_map _ _ _ le_rfl]; rfl
  intro x hx
  have hmem : ∀ a, a ∈ (nodesOf q).rotate k → a.p ∈ q := fun a ha => by
    rw [← List.mem_rotate (n := k), he]; exact List.mem_map_of_mem ha
  have hoff : Off ((nodesOf q).rotate k) x := fun a ha b hb hab => hx _ (hmem a ha) _ (hmem b hb) hab
  have hin : ringAll (fun u v : Node ℝ => 0 < turn u.p v.p x) ((nodesOf q).rotate k) ↔ InConvex q x := by
    rw [ringAll_rotate, ringAll_iff, InConvex, sides]
    conv_rhs => rw [← nodesOf_p q, ← List.map_rotate, List.zip_map]
    simp only [List.forall_mem_map]
    rfl
  rw [hf]
  constructor
  · intro hi
    have := fan_good _ _ le_rfl (by omega) hG x hoff (hin.2 hi)
    rw [List.filter_map, List.length_map]
    exact this
  · intro hi t ht hti
    obtain ⟨t', ht', rfl⟩ := List.mem_map.1 ht
    obtain ⟨m1, m2, m3⟩ := fan_mem _ _ le_rfl t' ht'
    exact hi (hin.1 (outside_none hG (by omega) hoff m1 m2 m3 hti))

theorem filter_sub {α : Type} {p q : α → Bool} {l : List α} (h : ∀ x ∈ l, p x = true → q x = true) :
    (l.filter q).filter p = l.filter p := by
  rw [List.filter_filter]
  refine List.filter_congr fun x hx => ?_
  cases hp : p x with
  | false => rfl
  | true => rw [h x hx hp]; rfl

/-- Flat triangles can be left out. -/
theorem tiles_filter {ts : List (P2 ℝ × P2 ℝ × P2 ℝ)} {q : List (P2 ℝ)} (h : Tiles ts q)
    (keep : P2 ℝ × P2 ℝ × P2 ℝ → Bool) (hk : ∀ t ∈ ts, 0 < turn t.1 t.2.1 t.2.2 → keep t = true) :
    Tiles (ts.filter keep) q := by
  intro x hx
  obtain ⟨h1, h2⟩ := h x hx
  refine ⟨fun hi => ?_, fun hi t ht => h2 hi t (List.mem_filter.1 ht).1⟩
  rw [filter_sub]
  · exact h1 hi
  · intro t ht hp
    rw [decide_eq_true_iff] at hp
    obtain ⟨p1, p2, p3⟩ := hp
    refine hk t ht ?_
    have e1 : turn t.1 t.2.1 x + turn t.2.1 t.2.2 x + turn t.2.2 t.1 x = turn t.1 t.2.1 t.2.2 := by unfold turn; ring
    linarith

end Verif.GmshOut
