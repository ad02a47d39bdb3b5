import Verif.Model.GmshOut
import Verif.Lemmas.EarcutTop
/-!
The vertices of a convex polygon sorted by the angle around their mean.
-/
noncomputable section
namespace Verif.GmshOut
open Verif Verif.Spec Verif.Earcut

/-- The angle of a point of the plane seen from another one. -/
def ang (o p : P2 ℝ) : ℝ := Complex.arg ⟨p.x - o.x, p.y - o.y⟩

/-- Seen from `o`, a left turn increases the angle unless it crosses the negative axis. -/
theorem ang_lt {o a b : P2 ℝ} (h : 0 < turn a b o) (hc : ¬ (o.y ≤ a.y ∧ b.y < o.y)) : ang o a < ang o b := by
  unfold ang
  set z : ℂ := ⟨a.x - o.x, a.y - o.y⟩
  set w : ℂ := ⟨b.x - o.x, b.y - o.y⟩
  have hcr : 0 < z.re * w.im - z.im * w.re := by
    have : z.re * w.im - z.im * w.re = turn a b o := by simp only [z, w, turn]; ring
    rw [this]; exact h
  have hz : z ≠ 0 := by intro h0; rw [h0] at hcr; simp at hcr
  have hw : w ≠ 0 := by intro h0; rw [h0] at hcr; simp at hcr
  by_contra hn
  rw [not_lt] at hn
  by_cases hp : z.arg - w.arg ≤ Real.pi
  · have hs := Real.sin_nonneg_of_nonneg_of_le_pi (sub_nonneg.2 hn) hp
    rw [Real.sin_sub, Complex.sin_arg, Complex.sin_arg, Complex.cos_arg hz, Complex.cos_arg hw,
      div_mul_div_comm, div_mul_div_comm, ← sub_div] at hs
    have hpos : 0 < ‖z‖ * ‖w‖ := mul_pos (norm_pos_iff.2 hz) (norm_pos_iff.2 hw)
    have := (div_nonneg_iff.1 hs)
    rcases this with ⟨h1, -⟩ | ⟨-, h2⟩
    · linarith
    · linarith
  · rw [not_le] at hp
    have h1 := Complex.neg_pi_lt_arg w
    have h2 := Complex.arg_le_pi z
    have h3 : 0 ≤ z.im := Complex.arg_nonneg_iff.1 (by linarith)
    have h4 : w.im < 0 := Complex.arg_neg_iff.1 (by linarith)
    apply hc
    simp only [z, w] at h3 h4
    constructor <;> linarith

theorem pathAll_pairwise {α : Type} {Q : α → α → Prop} (ht : ∀ a b c, Q a b → Q b c → Q a c) :
    ∀ {l : List α}, pathAll Q l → l.Pairwise Q := by
  intro l
  induction l with
  | nil => intro _; exact List.Pairwise.nil
  | cons a l ih =>
    intro h
    cases l with
    | nil => simp
    | cons b l =>
      have h2 := ih h.2
      rw [List.pairwise_cons]
      refine ⟨fun c hc => ?_, h2⟩
      rcases List.mem_cons.1 hc with rfl | hc
      · exact h.1
      · exact ht _ _ _ h.1 ((List.pairwise_cons.1 h2).1 c hc)

/-- The mean of some points. -/
def mean2 (q : List (P2 ℝ)) : P2 ℝ := ⟨(q.map P2.x).sum / q.length, (q.map P2.y).sum / q.length⟩

theorem turn_sum (u v : P2 ℝ) (q : List (P2 ℝ)) : (q.map fun w => turn u v w).sum =
    (v.x - u.x) * ((q.map P2.y).sum - q.length * u.y) - (v.y - u.y) * ((q.map P2.x).sum - q.length * u.x) := by
  induction q with
  | nil => simp
  | cons a q ih =>
    simp only [List.map_cons, List.sum_cons, ih, List.length_cons, Nat.cast_add, Nat.cast_one]
    unfold turn; ring

theorem turn_mean (u v : P2 ℝ) {q : List (P2 ℝ)} (h : q ≠ []) :
    (q.length : ℝ) * turn u v (mean2 q) = (q.map fun w => turn u v w).sum := by
  have hl : (q.length : ℝ) ≠ 0 := by
    rw [Nat.cast_ne_zero]; exact fun h0 => h (List.length_eq_zero_iff.1 h0)
  rw [turn_sum]
  unfold turn mean2
  field_simp

theorem on_line {u v a b c : P2 ℝ} (huv : u ≠ v) (ha : turn u v a = 0) (hb : turn u v b = 0) (hc : turn u v c = 0) :
    turn a b c = 0 := by
  by_cases hx : v.x - u.x = 0
  · have hy : v.y - u.y ≠ 0 := by
      intro hy
      exact huv (P2.ext (by linarith) (by linarith))
    apply mul_left_cancel₀ hy
    unfold turn at *
    rw [hx] at ha hb hc
    linear_combination (c.y - a.y) * (ha - hb) - (b.y - a.y) * (ha - hc)
  · apply mul_left_cancel₀ hx
    unfold turn at *
    linear_combination (b.x - a.x) * (hc - ha) - (c.x - a.x) * (hb - ha)

/-- Lists of points as nodes. -/
theorem good_of {q : List (P2 ℝ)} (hl : TurnsLeft q) (hn : q.Nodup) : Good (nodesOf q) := by
  refine ⟨fun a b c h => hl _ _ _ ?_, ?_⟩
  · have := map_sublist3 h
    rwa [nodesOf_p] at this
  · rw [← nodesOf_p q] at hn
    exact List.pairwise_map.1 hn

theorem turnsLeft_rotate {q : List (P2 ℝ)} (hl : TurnsLeft q) (hn : q.Nodup) (k : Nat) : TurnsLeft (q.rotate k) := by
  have hg := (good_of hl hn).rotate k
  have he : ((nodesOf q).rotate k).map (·.p) = q.rotate k := by rw [List.map_rotate, nodesOf_p]
  intro a b c h
  rw [← he] at h
  obtain ⟨l, h2, h3⟩ := List.sublist_map_iff.1 h
  have hl3 : l.length = 3 := by simpa using (congrArg List.length h3).symm
  obtain ⟨u, v, w, rfl⟩ := List.length_eq_three.1 hl3
  simp only [List.map_cons, List.map_nil, List.cons.injEq, and_true] at h3
  rw [h3.1, h3.2.1, h3.2.2]
  exact hg.left u v w h2

/-- No vertex is to the right of a side, and one is strictly to the left. -/
theorem side_left {q : List (P2 ℝ)} (hl : TurnsLeft q) (hn : q.Nodup) (hs : 0 < shoelace q) :
    ringAll (fun u v => 0 < turn u v (mean2 q) ∧ ∃ w ∈ q, 0 < turn u v w) q := by
  have h3 := length3 hs.ne'
  obtain ⟨d, l⟩ := (good_of hl hn).sides
  have hlen : (nodesOf q).length = q.length := by rw [← List.length_map (f := (·.p)), nodesOf_p]
  have hd : ∀ e ∈ q.zip (q.rotate 1), e.1 ≠ e.2 := by
    rw [ringAll_iff] at d
    intro e he
    rw [← nodesOf_p q, ← List.map_rotate, List.zip_map] at he
    obtain ⟨f, hf, rfl⟩ := List.mem_map.1 he
    exact (d f hf).resolve_right (by omega)
  have hL : ∀ e ∈ q.zip (q.rotate 1), ∀ w ∈ q, 0 ≤ turn e.1 e.2 w := by
    rw [ringAll_iff] at l
    intro e he w hw
    rw [← nodesOf_p q, ← List.map_rotate, List.zip_map] at he
    obtain ⟨f, hf, rfl⟩ := List.mem_map.1 he
    rw [← nodesOf_p q] at hw
    obtain ⟨g, hg, rfl⟩ := List.mem_map.1 hw
    exact l f hf g hg
  rw [ringAll_iff]
  intro e he
  have hex : ∃ w ∈ q, 0 < turn e.1 e.2 w := by
    by_contra hc
    push Not at hc
    have h0 : ∀ w ∈ q, turn e.1 e.2 w = 0 := fun w hw => le_antisymm (hc w hw) (hL e he w hw)
    have : Flat (nodesOf q) := by
      intro a b c h
      have hm := (map_sublist3 h).subset
      rw [nodesOf_p] at hm
      exact on_line (hd e he) (h0 _ (hm (by simp))) (h0 _ (hm (by simp))) (h0 _ (hm (by simp)))
    rw [flat_shoelace this] at hs
    exact lt_irrefl _ hs
  refine ⟨?_, hex⟩
  have hne : q ≠ [] := by intro h0; rw [h0] at h3; simp at h3
  have hp : 0 < (q.length : ℝ) := by rw [Nat.cast_pos]; omega
  have hsum : 0 < (q.map fun w => turn e.1 e.2 w).sum := by
    obtain ⟨w, hw, hw'⟩ := hex
    obtain ⟨s, t, rfl⟩ := List.append_of_mem hw
    have nn : ∀ l' : List (P2 ℝ), (∀ x ∈ l', 0 ≤ turn e.1 e.2 x) → 0 ≤ (l'.map fun w => turn e.1 e.2 w).sum :=
      fun l' h => List.sum_nonneg fun y hy => by
        obtain ⟨x, hx, rfl⟩ := List.mem_map.1 hy
        exact h x hx
    have a1 := nn s fun x hx => hL e he x (by simp [hx])
    have a2 := nn t fun x hx => hL e he x (by simp [hx])
    simp only [List.map_append, List.map_cons, List.sum_append, List.sum_cons]
    linarith
  rw [← turn_mean _ _ hne] at hsum
  exact pos_of_mul_pos_right hsum hp.le

/-- The ring cannot go below the mean twice. -/
theorem one_descent {b c d a e : P2 ℝ} {s t : List (P2 ℝ)} {y : ℝ} (hl : TurnsLeft (b :: s ++ c :: d :: t ++ [a]))
    (ha : y ≤ a.y) (hb : b.y < y) (hc : y ≤ c.y) (hd : d.y < y) (he : e ∈ b :: s ++ c :: d :: t ++ [a])
    (hp : 0 < turn a b e) : False := by
  have s1 : List.Sublist [c, d, a] (b :: s ++ c :: d :: t ++ [a]) := by
    have : List.Sublist ([c, d] ++ [a]) ((b :: s ++ c :: d :: t) ++ [a]) :=
      List.Sublist.append ((by simp : List.Sublist [c, d] (c :: d :: t)).trans (List.sublist_append_right _ _)) (List.Sublist.refl _)
    exact this
  have s2 : List.Sublist [b, c, a] (b :: s ++ c :: d :: t ++ [a]) := by
    have : List.Sublist (([b] ++ [c]) ++ [a]) ((b :: s ++ c :: d :: t) ++ [a]) :=
      List.Sublist.append (List.Sublist.append (by simp) (by simp)) (List.Sublist.refl _)
    exact this
  have s3 : List.Sublist [b, d, a] (b :: s ++ c :: d :: t ++ [a]) := by
    have : List.Sublist (([b] ++ [d]) ++ [a]) ((b :: s ++ c :: d :: t) ++ [a]) :=
      List.Sublist.append (List.Sublist.append (by simp) (by simp)) (List.Sublist.refl _)
    exact this
  have s4 : List.Sublist [b, c, d] (b :: s ++ c :: d :: t ++ [a]) := by
    have : List.Sublist (([b] ++ [c, d]) ++ []) ((b :: s ++ c :: d :: t) ++ [a]) :=
      List.Sublist.append (List.Sublist.append (by simp) (by simp)) (by simp)
    exact this
  have t1 := hl _ _ _ s1
  have t2 := hl _ _ _ s2
  have t3 := hl _ _ _ s3
  have t4 := hl _ _ _ s4
  have id1 : turn c d a * (b.y - y) + turn b c a * (d.y - y) = turn b d a * (c.y - y) + turn b c d * (a.y - y) := by
    unfold turn; ring
  have id2 : turn c d a + turn b c a = turn b d a + turn b c d := by unfold turn; ring
  have r1 := mul_nonneg t3 (sub_nonneg.2 hc)
  have r2 := mul_nonneg t4 (sub_nonneg.2 ha)
  have l1 := mul_nonpos_of_nonneg_of_nonpos t1 (sub_neg.2 hb).le
  have l2 := mul_nonpos_of_nonneg_of_nonpos t2 (sub_neg.2 hd).le
  have z1 : turn c d a = 0 := by
    have : turn c d a * (b.y - y) = 0 := by linarith
    exact (mul_eq_zero.1 this).resolve_right (sub_neg.2 hb).ne
  have z2 : turn b c a = 0 := by
    have : turn b c a * (d.y - y) = 0 := by linarith
    exact (mul_eq_zero.1 this).resolve_right (sub_neg.2 hd).ne
  have z3 : turn b d a = 0 := by linarith
  simp only [List.mem_append, List.mem_cons, List.not_mem_nil, or_false] at he
  have self1 : turn a b a = 0 := by unfold turn; ring
  have self2 : turn a b b = 0 := by unfold turn; ring
  have self3 : turn a b c = turn b c a := by unfold turn; ring
  have self4 : turn a b d = turn b d a := by unfold turn; ring
  rcases he with (((rfl | he) | rfl | rfl | he) | rfl)
  · linarith
  · have s5 : List.Sublist [e, d, a] (b :: s ++ c :: d :: t ++ [a]) := by
      have : List.Sublist (([e] ++ [d]) ++ [a]) ((b :: s ++ c :: d :: t) ++ [a]) :=
        List.Sublist.append (List.Sublist.append ((List.singleton_sublist.2 he).trans (List.sublist_cons_self _ _)) (by simp))
          (List.Sublist.refl _)
      exact this
    have t5 := hl _ _ _ s5
    have id3 : (a.y - b.y) * turn e d a + (a.y - d.y) * turn a b e = (a.y - e.y) * turn b d a := by unfold turn; ring
    rw [z3, mul_zero] at id3
    have := mul_nonneg (show 0 ≤ a.y - b.y by linarith) t5
    have := mul_pos (show 0 < a.y - d.y by linarith) hp
    linarith
  · linarith
  · linarith
  · have s5 : List.Sublist [b, c, e] (b :: s ++ c :: d :: t ++ [a]) := by
      have : List.Sublist (([b] ++ [c, e]) ++ []) ((b :: s ++ c :: d :: t) ++ [a]) :=
        List.Sublist.append (List.Sublist.append (by simp)
          (((List.singleton_sublist.2 he).trans (List.sublist_cons_self _ _)).cons_cons c)) (by simp)
      exact this
    have t5 := hl _ _ _ s5
    have id3 : (a.y - b.y) * turn b c e + (c.y - b.y) * turn a b e = (e.y - b.y) * turn b c a := by unfold turn; ring
    rw [z2, mul_zero] at id3
    have := mul_nonneg (show 0 ≤ a.y - b.y by linarith) t5
    have := mul_pos (show 0 < c.y - b.y by linarith) hp
    linarith
  · linarith

/-- From the vertex with the smallest angle on, the angles of a convex polygon around its mean increase. -/
theorem ring_sorted {q : List (P2 ℝ)} (hl : TurnsLeft q) (hn : q.Nodup) (hs : 0 < shoelace q) :
    ∃ k, (q.rotate k).Pairwise fun a b => ang (mean2 q) a < ang (mean2 q) b := by
  classical
  have h3 := length3 hs.ne'
  have hne : q.toFinset.Nonempty := by
    cases q with
    | nil => simp at h3
    | cons a q => exact ⟨a, by simp⟩
  obtain ⟨b, hb, hmin⟩ := Finset.exists_min_image q.toFinset (ang (mean2 q)) hne
  rw [List.mem_toFinset] at hb
  obtain ⟨s, t, hq⟩ := List.append_of_mem hb
  have hR : q.rotate s.length = b :: (t ++ s) := by rw [hq, List.rotate_append_length_eq]; rfl
  have hsd := side_left hl hn hs
  rw [← ringAll_rotate _ q s.length, hR] at hsd
  have hlR : TurnsLeft (b :: (t ++ s)) := hR ▸ turnsLeft_rotate hl hn s.length
  have hmem : ∀ w, w ∈ q → w ∈ b :: (t ++ s) := fun w hw => by rw [← hR]; exact List.mem_rotate.2 hw
  have hmem' : ∀ w, w ∈ b :: (t ++ s) → w ∈ q := fun w hw => by rw [← hR] at hw; exact List.mem_rotate.1 hw
  have hlen : (t ++ s).length + 1 = q.length := by
    have := congrArg List.length hR
    rw [List.length_rotate] at this
    rw [this]; simp
  set T := t ++ s with hT
  refine ⟨s.length, ?_⟩
  rw [hR]
  refine pathAll_pairwise (Q := fun a b => ang (mean2 q) a < ang (mean2 q) b) (fun _ _ _ h h' => lt_trans h h') ?_
  rcases List.eq_nil_or_concat T with h0 | ⟨T', a, hTa⟩
  · rw [h0] at hlen; simp at hlen; omega
  rw [List.concat_eq_append] at hTa
  have hring : pathAll (fun u v => 0 < turn u v (mean2 q) ∧ ∃ w ∈ q, 0 < turn u v w) (b :: T' ++ [a, b]) := by
    have := hsd
    rw [hTa] at this
    simpa [ringAll] using this
  rw [pathAll_snoc] at hring
  obtain ⟨hpath, hab, e, he, hpe⟩ := hring
  have hdown : (mean2 q).y ≤ a.y ∧ b.y < (mean2 q).y := by
    by_contra hc
    have := ang_lt hab hc
    have := hmin a (List.mem_toFinset.2 (hmem' a (by rw [hTa]; simp)))
    linarith
  rw [hTa, ← List.cons_append]
  refine pathAll_of _ _ fun s' c d t' hdec => ?_
  have hcd : 0 < turn c d (mean2 q) := by
    have key : ∀ (l : List (P2 ℝ)) (s' : List (P2 ℝ)), l = s' ++ c :: d :: t' →
        pathAll (fun u v => 0 < turn u v (mean2 q) ∧ ∃ w ∈ q, 0 < turn u v w) l → 0 < turn c d (mean2 q) := by
      intro l s'
      induction s' generalizing l with
      | nil => rintro rfl h; exact h.1.1
      | cons x s' ih =>
        intro h1 h2
        cases s' with
        | nil => subst h1; exact h2.2.1.1
        | cons y s'' => subst h1; exact ih _ rfl h2.2
    exact key _ s' hdec hpath
  refine ang_lt hcd fun hc => ?_
  cases s' with
  | nil =>
    rw [List.nil_append, List.cons_append] at hdec
    obtain ⟨rfl, -⟩ := List.cons.inj hdec
    linarith [hc.1, hdown.2]
  | cons x s'' =>
    rw [List.cons_append, List.cons_append] at hdec
    have hdec := (List.cons.inj hdec).2
    rcases List.eq_nil_or_concat t' with rfl | ⟨t'', z, rfl⟩
    · have e1 : T' ++ [a] = (s'' ++ [c]) ++ [d] := by simpa using hdec
      obtain ⟨-, e3⟩ := List.append_inj' e1 rfl
      cases e3
      linarith [hc.2, hdown.1]
    · have e1 : T' ++ [a] = (s'' ++ c :: d :: t'') ++ [z] := by simpa using hdec
      obtain ⟨e2, e3⟩ := List.append_inj' e1 rfl
      cases e3
      have hform : b :: T = b :: s'' ++ c :: d :: t'' ++ [a] := by rw [hTa, e2]; simp
      rw [hform] at hlR
      exact one_descent hlR hdown.1 hdown.2 hc.1 hc.2 (hform ▸ hmem e he) hpe

end Verif.GmshOut
