import Verif.Model.Outcome
import Mathlib.Algebra.Order.Field.Basic
/-!
The list of time steps: `mechanics/NewtonSolver/TimeManager.hpp`.

`rd` is applied to the result of every arithmetic operation: the identity for exact arithmetic, a rounding for
floating point. Calling `front` or `pop_front` on an empty list is undefined behaviour.
-/
namespace Verif.TimeSteps
variable {K : Type} [Field K] [LinearOrder K]

/-- `TimeStep`, `TimeManager.hpp:44-108`. -/
structure Step (K : Type) where
  start : K
  fin : K
  level : Nat
deriving DecidableEq

/-- `ListOfTimeStep`, `TimeManager.hpp:115-122`, without `user_end_time`, which is only read by
`addTimeStepping`. -/
structure Steps (K : Type) where
  list : List (Step K)
  comp : Nat
deriving DecidableEq

/-- The start time of `addTimeStepping`: the end of the last step, or 0. -/
def startTime (l : List (Step K)) : K := match l.getLast? with
  | some s => s.fin
  | none => 0

/-- `addTimeStepping`, `TimeManager.hpp:124-145`, for a number of steps that is not negative. -/
def addStepping (rd : K → K) (user endT : K) (n : Nat) (l : List (Step K)) : List (Step K) :=
  let a := startTime l
  let dt := rd (rd (endT - a) / n)
  (List.range n).foldl (fun l i =>
    if rd (a + rd (((i + 1 : Nat) : K) * dt)) ≤ user then
      l ++ [⟨rd (a + rd ((i : K) * dt)), rd (a + rd (((i + 1 : Nat) : K) * dt)), 0⟩]
    else l) l

/-- `ListOfTimeStep(end_time, n_step)`, `TimeManager.hpp:150-153`. -/
def init (rd : K → K) (endT : K) (n : Nat) : Steps K := ⟨addStepping rd endT endT n [], 0⟩

/-- `ListOfTimeStep(list)`, `TimeManager.hpp:155-163`; an empty list reads `list[size() - 1]` out of bounds. -/
def initStages (rd : K → K) (stages : List (K × Nat)) : Outcome (Steps K) :=
  match stages.getLast? with
  | none => .ub "list_of_time_step[size() - 1] of an empty vector"
  | some e => .ok ⟨stages.foldl (fun l s => addStepping rd e.1 s.1 s.2 l) [], 0⟩

/-- `ListOfTimeStep(list, final_time)`, `TimeManager.hpp:165-173`. -/
def initUntil (rd : K → K) (stages : List (K × Nat)) (final : K) : Steps K :=
  ⟨stages.foldl (fun l s => addStepping rd final s.1 s.2 l) [], 0⟩

/-- `getCurrentTimeStep`, `TimeManager.hpp:235-239`. -/
def current (s : Steps K) : Outcome (Step K) := match s.list with
  | [] => .ub "front of an empty list"
  | a :: _ => .ok a

/-- `removeCurrentTimeStep`, `TimeManager.hpp:245-250`. -/
def remove (s : Steps K) : Outcome (Steps K) := match s.list with
  | [] => .ub "pop_front of an empty list"
  | _ :: l => .ok ⟨l, s.comp + 1⟩

/-- `splitCurrentTimeStep`, `TimeManager.hpp:256-274`. -/
def split (rd : K → K) (s : Steps K) : Outcome (Steps K) :=
  (current s).bind fun c =>
    let mid := rd (c.start + rd (rd (c.fin - c.start) / 2))
    .ok ⟨⟨c.start, mid, c.level + 1⟩ :: ⟨mid, c.fin, c.level + 1⟩ :: s.list.tail, s.comp⟩

/-- `numberOfTimeStep`, `TimeManager.hpp:191-195`. -/
def number (s : Steps K) : Nat := s.list.length + s.comp

/-- What the time loop does with the current step (`NewtonSolver.hpp:546-608`). -/
inductive Op
  | accept
  | split
deriving DecidableEq

/-- A run of the time loop: the state and the accepted steps, oldest first. -/
def run (rd : K → K) (s : Steps K) (acc : List (Step K)) : List Op → Outcome (Steps K × List (Step K))
  | [] => .ok (s, acc)
  | Op.accept :: ops =>
    (current s).bind fun c => (remove s).bind fun s' => run rd s' (acc ++ [c]) ops
  | Op.split :: ops => (split rd s).bind fun s' => run rd s' acc ops

end Verif.TimeSteps
