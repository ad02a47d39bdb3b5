import Verif.Model.NewtonParams
/-!
What a parameters file means: a list of settings, each with its effect.
-/
namespace Verif.Spec
open Verif.NewtonParams

/-- One setting of a parameters file. -/
inductive Setting (K : Type) where
  | faceDegree (n : Int)
  | cellDegree (n : Int)
  | gradDegree (n : Int)
  | sublevel (n : Int)
  | timeStep (l : List (K × Int))
  | finalTime (x : K)
  | timeSave (l : List K)
  | stabilization (b : Bool)
  | adaptative (b : Bool)
  | stabType (t : Stab)
  | beta (x : K)
  | verbose (b : Bool)
  | iterMax (n : Int)
  | epsilon (x : K)
  | precomputation (b : Bool)
  | theta (x : K)
  | gamma0 (x : K)
  | friction (f : Friction)
  | threshold (x : K)
  | dynamic (b : Bool)

namespace Setting
variable {K : Type}

/-- The effect of a setting. Switching the stabilization off also sets its type to `NO`. -/
def apply (p : Params K) : Setting K → Params K
  | faceDegree n => { p with face := n }
  | cellDegree n => { p with cell := n }
  | gradDegree n => { p with grad := n }
  | sublevel n => { p with sublevel := n }
  | timeStep l => { p with timeStep := l }
  | finalTime x => { p with userEnd := x, hasEnd := true }
  | timeSave l => { p with nSave := l.length, saves := l }
  | stabilization true => { p with stab := true }
  | stabilization false => { p with stab := false, stabType := .no }
  | adaptative b => { p with adaptStab := b }
  | stabType t => { p with stabType := t }
  | beta x => { p with beta := x }
  | verbose b => { p with verbose := b }
  | iterMax n => { p with iterMax := n }
  | epsilon x => { p with eps := x }
  | precomputation b => { p with precomp := b }
  | theta x => { p with theta := x }
  | gamma0 x => { p with gamma0 := x }
  | friction f => { p with frot := f }
  | threshold x => { p with threshold := x }
  | dynamic b => { p with dynamic := b }

/-- `true` or `false`. -/
def boolTok (b : Bool) : Tok K := .word (if b then "true" else "false")

/-- The name of a stabilization. -/
def stabName : Stab → String
  | .hdg => "HDG"
  | .hho => "HHO"
  | .no => "NO"
  | .dg => "DG"

/-- The name of a friction law. -/
def frictionName : Friction → String
  | .none => "NO"
  | .tresca => "TRESCA"
  | .coulomb => "COULOMB"

/-- The words of a setting in the file; `num` writes a real number. -/
def write (num : K → Tok K) : Setting K → List (Tok K)
  | faceDegree n => [.word "FaceDegree", .int n]
  | cellDegree n => [.word "CellDegree", .int n]
  | gradDegree n => [.word "GradDegree", .int n]
  | sublevel n => [.word "Sublevel", .int n]
  | timeStep l => .word "TimeStep" :: .int l.length :: l.flatMap fun s => [num s.1, .int s.2]
  | finalTime x => [.word "FinalTime", num x]
  | timeSave l => .word "TimeSave" :: .int l.length :: l.map num
  | stabilization b => [.word "Stabilization", boolTok b]
  | adaptative b => [.word "AdaptativeStabilization", boolTok b]
  | stabType t => [.word "StabType", .word (stabName t)]
  | beta x => [.word "Beta", num x]
  | verbose b => [.word "Verbose", boolTok b]
  | iterMax n => [.word "IterMax", .int n]
  | epsilon x => [.word "Epsilon", num x]
  | precomputation b => [.word "Precomputation", boolTok b]
  | theta x => [.word "Theta", num x]
  | gamma0 x => [.word "Gamma0", num x]
  | friction f => [.word "Friction", .word (frictionName f)]
  | threshold x => [.word "Threshold", num x]
  | dynamic b => [.word "Dynamic", boolTok b]

/-- All settings in order. -/
def applyAll (p : Params K) (l : List (Setting K)) : Params K := l.foldl apply p

/-- A file up to, but without, its last line `EndParameters`. -/
def cutFile (num : K → Tok K) (l : List (Setting K)) : List (Tok K) :=
  .word "BeginParameters" :: l.flatMap (write num)

/-- A whole file. -/
def file (num : K → Tok K) (l : List (Setting K)) : List (Tok K) := cutFile num l ++ [.word "EndParameters"]

end Setting

/-- `num` writes every number such that it is read back. -/
def WritesReals {K : Type} (num : K → Tok K) : Prop := ∀ x, ∃ ip rest, num x = .real ip rest x

end Verif.Spec
