import Verif.Model.Behavior
/-!
Requirements on the stored state of the material laws, in terms of the calls made on a quadrature point.
-/
namespace Verif.Spec
open Verif.Behavior

variable {σ E R S C : Type}

/-- The calls that concern point `qp` of cell `cell`: `some e` is an evaluation at the strain `e`, `none` an update. -/
def callsAt (cell qp : Nat) : List (Call E) → List (Option E)
  | [] => []
  | .whole c q e :: l => if c = cell ∧ q = qp then some e :: callsAt cell qp l else callsAt cell qp l
  | .update :: l => none :: callsAt cell qp l

/-- One quadrature point on its own. -/
def pointRun (L : PointLaw σ E R S) (s : σ) (l : List (Option E)) : σ :=
  l.foldl (fun s o => match o with
    | some e => (L.whole s e).2
    | none => L.update s) s

/-- The strains that were accepted: for each update, the last strain evaluated since the update before it. -/
def acceptedStrains : Option E → List (Option E) → List E
  | _, [] => []
  | p, none :: l => p.toList ++ acceptedStrains none l
  | _, some e :: l => acceptedStrains (some e) l

/-- Every accepted strain is evaluated once and committed. -/
def directCalls (h : List E) : List (Option E) := h.flatMap fun e => [some e, none]

/-- No update commits an evaluation that threw; `f` tells whether the last evaluation succeeded. -/
def CleanUpdates (L : PointLaw σ E R S) : Bool → σ → List (Option E) → Prop
  | _, _, [] => True
  | f, s, none :: l => f = true ∧ CleanUpdates L true (L.update s) l
  | _, s, some e :: l =>
    CleanUpdates L (match (L.whole s e).1 with
      | .ok _ => true
      | _ => false) (L.whole s e).2 l

/-- `committed` is what a law remembers of the steps accepted so far: an evaluation does not change it, its result depends
on nothing else, and neither does the state it leaves. -/
structure Memoryless (L : PointLaw σ E R S) (committed : σ → C) : Prop where
  keeps : ∀ s e, committed (L.whole s e).2 = committed s
  result : ∀ s s' e, committed s = committed s' → (L.whole s e).1 = (L.whole s' e).1
  state : ∀ s s' e r, committed s = committed s' → (L.whole s e).1 = .ok r → (L.whole s e).2 = (L.whole s' e).2
  idem : ∀ s, L.update (L.update s) = L.update s
  fresh : L.update L.fresh = L.fresh

/-- The stress read from the state is the one the evaluation returned, also after the update. -/
structure Readback {T A : Type} (L : PointLaw σ E (T × A) S) (part : S → T) : Prop where
  read : ∀ s e r, (L.whole s e).1 = .ok r → ∃ v, L.stress (L.whole s e).2 = .ok v ∧ part v = r.1
  update : ∀ s, L.stress (L.update s) = L.stress s

/-- The pairs of a deformation measure and a law that go together. -/
def CompatibleLaw (deformation law : Nat) : Prop :=
  (deformation, law) ∈ [(0, 0), (0, 1), (0, 2), (0, 3), (1, 0), (1, 1), (1, 2), (2, 4), (2, 5)]

end Verif.Spec
