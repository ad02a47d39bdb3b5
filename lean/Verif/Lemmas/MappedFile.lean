import Verif.Model.MappedFile
import Verif.Spec.MappedFile
/-! Lemmas for MappedFile.lean. -/
namespace Verif.Props.MappedFile
open Verif.MappedFile Verif.Spec.MappedFile

theorem memchr_none (l : List UInt8) (h : NoNewline l) : memchr l = none := by
  induction l with
  | nil => rfl
  | cons c cs ih =>
    have hc : c ≠ nl := h c (by simp)
    have := ih (fun x hx => h x (by simp [hx]))
    simp [memchr, hc, this]

theorem memchr_some (l r : List UInt8) (h : NoNewline l) : memchr (l ++ 10 :: r) = some l.length := by
  induction l with
  | nil => simp [memchr, nl]
  | cons c cs ih =>
    have hc : c ≠ nl := h c (by simp)
    have := ih (fun x hx => h x (by simp [hx]))
    simp [memchr, hc, this]

theorem getLine_step (f : File) (p : Nat) (l r : List UInt8) (hp : f.start = .pos p) (h : NoNewline l)
    (hd : f.bytes.drop p = l ++ 10 :: r) :
    f.getLine = (.ok l, { f with start := .pos (p + l.length + 1) }) := by
  simp [File.getLine, hp, hd, memchr_some l r h]

theorem readLines_from (ls : List (List UInt8)) (rest : List UInt8) (f : File) (p : Nat) (hp : f.start = .pos p)
    (h : ∀ l ∈ ls, NoNewline l) (hd : f.bytes.drop p = terminated ls ++ rest) :
    readLines ls.length f = (.ok ls, { f with start := .pos (p + (terminated ls).length) }) := by
  induction ls generalizing f p with
  | nil =>
    cases f
    simp only at hp
    simp [readLines, terminated, hp]
  | cons l ls ih =>
    have hd' : f.bytes.drop p = l ++ 10 :: (terminated ls ++ rest) := by rw [hd]; simp [terminated]
    have hs := getLine_step f p l _ hp (h l (by simp)) hd'
    have hd2 : f.bytes.drop (p + l.length + 1) = terminated ls ++ rest := by
      rw [Nat.add_assoc, ← List.drop_drop, hd']
      simp
    have := ih { f with start := .pos (p + l.length + 1) } (p + l.length + 1) rfl (fun x hx => h x (by simp [hx])) hd2
    simp only [List.length_cons, readLines, hs, this]
    simp [terminated]
    omega

end Verif.Props.MappedFile
