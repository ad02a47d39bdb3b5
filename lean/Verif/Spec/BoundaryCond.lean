import Verif.Model.BoundaryCond
/-!
Spec of boundary conditions: which call governs a face, read off the history of calls alone.
-/
namespace Verif.Spec
open Verif.MeshTopo Verif.BoundaryCond

variable {C F K Fn : Type}

/-- The kind of conditions a call adds. -/
def callKind : Call K Fn → Option Kind
  | .add k _ _ _ => some k
  | .addContact _ _ => some .contact
  | .everywhere _ => some .dirichlet
  | .scale _ => none

/-- The boundary faces a call concerns: those of the given boundary id, or all of them. -/
def callCovers (m : Mesh C F) (c : Call K Fn) (i : Nat) : Bool :=
  match m.binfo[i]? with
  | none => false
  | some d => d.isB && match c with
    | .add _ _ b _ => d.id == b
    | .addContact _ b => d.id == b
    | .everywhere _ => true
    | .scale _ => false

/-- The type given by a call. -/
def callType : Call K Fn → Nat
  | .add _ t _ _ => t
  | .addContact t _ => t
  | .everywhere _ => 0
  | .scale _ => 0

/-- The boundary id given by a call (0 for "everywhere"). -/
def callId : Call K Fn → Nat
  | .add _ _ b _ => b
  | .addContact _ b => b
  | .everywhere _ => 0
  | .scale _ => 0

/-- The function given by a call. -/
def callFn : Call K Fn → Option Fn
  | .add _ _ _ f => some f
  | .addContact _ _ => none
  | .everywhere f => some f
  | .scale _ => none

/-- The call of kind `k` covering face `i`. -/
def concerns (m : Mesh C F) (k : Kind) (i : Nat) (c : Call K Fn) : Bool :=
  decide (callKind c = some k) && callCovers m c i

/-- The last call of kind `k` covering face `i` in a history. -/
def lastCall (m : Mesh C F) (k : Kind) (i : Nat) (h : List (Call K Fn)) : Option (Call K Fn) :=
  h.reverse.find? (concerns m k i)

/-- The last factor of a history. -/
def lastFactor (one : K) (h : List (Call K Fn)) : K :=
  h.foldl (fun x c => match c with | .scale y => y | _ => x) one

/-- Components constrained by a Dirichlet type in dimension `dim`; `none` if the type makes no sense
in that dimension. Enumerators by name: all components for DIRICHLET and CLAMPED. -/
def constrained (t dim : Nat) : Option (List Nat) :=
  if t = DIRICHLET ∨ t = CLAMPED then some (List.range dim)
  else if t = DX then some [0]
  else if t = DY then some [1]
  else if t = DZ then (if dim = 3 then some [2] else none)
  else if t = DXDY then some [0, 1]
  else if t = DXDZ then (if dim = 3 then some [0, 2] else none)
  else if t = DYDZ then (if dim = 3 then some [1, 2] else none)
  else if t = NOTHING then some []
  else none

end Verif.Spec
