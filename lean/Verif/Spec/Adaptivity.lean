/-! Spec of a store with fields updated one at a time: the last value written for a key wins. -/
namespace Verif.Spec

/-- The last value written for `k` in a history of `(key, value)` writes, `d` if there is none. -/
def lastWrite {κ α : Type} [DecidableEq κ] (k : κ) (d : α) : List (κ × α) → α
  | [] => d
  | (k', v) :: ws => lastWrite k (if k' = k then v else d) ws

end Verif.Spec
