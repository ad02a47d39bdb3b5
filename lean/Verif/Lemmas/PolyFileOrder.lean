import Verif.Lemmas.PolyFile
import Verif.Lemmas.Renumber
/-! Lemmas for C74 and C75. -/
namespace Verif.Props.PolyFile
open Verif Verif.PolyFile Verif.Spec.PolyFile
variable {K : Type}

theorem read_text (d : Nat) (l : List (Sec K)) (hv : ∀ x ∈ l, Valid d x) (ts : List (Tok K)) :
    ∃ s : St K, (∀ fuel, read d (l.length + fuel) (text l ++ ts) = loop d fuel s) ∧ s.data = content l ∧ s.ts = ts ∧
      (∀ x, l.getLast? = some x → After d s x) ∧ (l = [] → s.keyword = "**BeginMesh") := by
  obtain ⟨s, h1, h2, h3, h4, h5⟩ := loop_sections d l hv ⟨"**BeginMesh", none, none, ⟨[], fun _ => [], fun _ => []⟩,
    l.flatMap write ++ ts⟩ ts rfl
  refine ⟨s, ?_, h2, h3, h4, fun h => by rw [h5 h]⟩
  intro fuel
  rw [← h1 fuel]
  simp [PolyFile.read, text, nextKeyword]

theorem loop_running (d : Nat) (l : List (Sec K)) (k fuel : Nat) (h : read d (fuel + k) (text l) = .ok none) :
    read d fuel (text l) = .ok none := by
  have hb : (nextKeyword "" (text l)).1 = "**BeginMesh" := by simp [text, nextKeyword]
  unfold PolyFile.read at h ⊢
  rw [if_neg (by rw [hb]; simp)] at h ⊢
  exact loop_mono d k fuel _ h

open Verif.Renumber hiding Entry

theorem sort_order {srt : List Entry → List Entry} (hs : IsSort srt) {l l' : List Entry} (hp : l.Perm l')
    (hn : (l.map Prod.snd).Nodup) : srt l = srt l' := by
  obtain ⟨p, q⟩ := hs l
  obtain ⟨p', q'⟩ := hs l'
  refine List.Perm.eq_of_pairwise (le := fun a b => ¬ b.2 < a.2) ?_ q q' (p.trans (hp.trans p'.symm))
  intro a b ha hb h1 h2
  refine List.inj_on_of_nodup_map hn (p.mem_iff.1 ha) (hp.mem_iff.2 (p'.mem_iff.1 hb)) ?_
  exact List.le_antisymm (List.not_lt.1 h1) (List.not_lt.1 h2)

theorem map_inj_on (f : Nat → Nat) (n : Nat) (hf : ∀ i < n, ∀ j < n, f i = f j → i = j) :
    ∀ (a b : List Nat), (∀ i ∈ a, i < n) → (∀ i ∈ b, i < n) → a.map f = b.map f → a = b := by
  intro a
  induction a with
  | nil => intro b _ _ h; cases b with
    | nil => rfl
    | cons => simp at h
  | cons x a ih => intro b ha hb h; cases b with
    | nil => simp at h
    | cons y b =>
      simp only [List.map_cons, List.cons.injEq] at h
      rw [hf x (ha x List.mem_cons_self) y (hb y List.mem_cons_self) h.1,
        ih b (fun i hi => ha i (List.mem_cons_of_mem _ hi)) (fun i hi => hb i (List.mem_cons_of_mem _ hi)) h.2]

theorem relinked_nodup (t : List Nat) (n : Nat) (hp : Spec.PermBelow n (posOf t)) (l : List Entry)
    (hl : ∀ x ∈ l, ∀ i ∈ x.2, i < n) (hn : (l.map Prod.snd).Nodup) :
    ((l.map fun x => (x.1, x.2.map (posOf t))).map Prod.snd).Nodup := by
  rw [List.map_map]
  have : (Prod.snd ∘ fun x : Entry => (x.1, x.2.map (posOf t))) = (fun y => y.map (posOf t)) ∘ Prod.snd := rfl
  rw [this, ← List.map_map]
  refine (List.nodup_map_iff_inj_on hn).2 ?_
  intro a ha b hb e
  obtain ⟨x, hx, rfl⟩ := List.mem_map.1 ha
  obtain ⟨y, hy, rfl⟩ := List.mem_map.1 hb
  exact map_inj_on _ n (fun i hi j hj e => permBelow_inj hp hi hj e) _ _ (hl x hx) (hl y hy) e

end Verif.Props.PolyFile
