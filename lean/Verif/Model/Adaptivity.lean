import Verif.Model.Outcome
/-!
Per-element degree information, `adaptivity/adaptivity.hpp`.

Cells and faces are given by the number `msh.lookup` returns (C03). A number outside the vectors is an
out-of-range `operator[]`. The setters `degreeInfo(msh, cl, di)` and `degreeInfo(msh, fc, di)`
(335-340, 365-370) return a value from a `void` function and do not compile when used; they are left out.
-/
namespace Verif.Adaptivity

/-- `DegreeInfo`, `adaptivity/adaptivity.hpp:30-66`. -/
structure DegreeInfo where
  hasUnknowns : Bool
  degree : Nat
  deriving Repr, DecidableEq

/-- `DegreeInfo()`, `:37`. -/
def DegreeInfo.empty : DegreeInfo := ⟨false, 0⟩
/-- `DegreeInfo(degree)`, `:38`. -/
def DegreeInfo.ofDegree (d : Nat) : DegreeInfo := ⟨true, d⟩
/-- `degree(d)`, `:49-53`. -/
def DegreeInfo.setDegree (i : DegreeInfo) (d : Nat) : DegreeInfo := { i with degree := d }
/-- `hasUnknowns(b)`, `:61-65`. -/
def DegreeInfo.setUnknowns (i : DegreeInfo) (b : Bool) : DegreeInfo := { i with hasUnknowns := b }

/-- `MeshDegreeInfo`, `:216-226`. -/
structure State where
  cells : List DegreeInfo
  faces : List DegreeInfo
  gradient : List DegreeInfo
  reconstruction : List DegreeInfo
  deriving Repr, DecidableEq

/-- The constructors, `:229-270`, for a mesh with `nc` cells and `nf` faces. -/
inductive Init
  /-- `MeshDegreeInfo()` -/
  | none
  /-- `MeshDegreeInfo(msh)` -/
  | mesh
  /-- `MeshDegreeInfo(msh, degree)` -/
  | degree (d : Nat)
  /-- `MeshDegreeInfo(msh, cell_degree, face_degree)` -/
  | cellFace (c f : Nat)
  /-- `MeshDegreeInfo(msh, cell_degree, face_degree, grad_degree)` -/
  | cellFaceGrad (c f g : Nat)

/-- `:229-270`. -/
def construct (nc nf : Nat) : Init → State
  | .none => ⟨[], [], [], []⟩
  | .mesh => ⟨.replicate nc .empty, .replicate nf .empty, .replicate nc .empty, .replicate nc .empty⟩
  | .degree d => ⟨.replicate nc (.ofDegree d), .replicate nf (.ofDegree d), .replicate nc (.ofDegree d),
      .replicate nc (.ofDegree (d + 1))⟩
  | .cellFace c f => ⟨.replicate nc (.ofDegree c), .replicate nf (.ofDegree f), .replicate nc (.ofDegree f),
      .replicate nc (.ofDegree (f + 1))⟩
  | .cellFaceGrad c f g => ⟨.replicate nc (.ofDegree c), .replicate nf (.ofDegree f), .replicate nc (.ofDegree g),
      .replicate nc (.ofDegree (f + 1))⟩

/-- Updates. -/
inductive Op
  /-- `degree(msh, cl, d)`, `:272-277` -/
  | cellDegree (i d : Nat)
  /-- `degree(msh, fc, d)`, `:286-291` -/
  | faceDegree (i d : Nat)
  /-- `hasUnknowns(msh, cl, b)`, `:300-305` -/
  | cellUnknowns (i : Nat) (b : Bool)
  /-- `hasUnknowns(msh, fc, b)`, `:314-319` -/
  | faceUnknowns (i : Nat) (b : Bool)

/-- `v[i].f(x)`. -/
def upd (v : List DegreeInfo) (i : Nat) (f : DegreeInfo → DegreeInfo) : Outcome (List DegreeInfo) :=
  match v[i]? with
  | some x => .ok (v.set i (f x))
  | none => .ub "vector index out of range"

/-- One update. -/
def exec (s : State) : Op → Outcome State
  | .cellDegree i d => (upd s.cells i (·.setDegree d)).bind fun v => .ok { s with cells := v }
  | .faceDegree i d => (upd s.faces i (·.setDegree d)).bind fun v => .ok { s with faces := v }
  | .cellUnknowns i b => (upd s.cells i (·.setUnknowns b)).bind fun v => .ok { s with cells := v }
  | .faceUnknowns i b => (upd s.faces i (·.setUnknowns b)).bind fun v => .ok { s with faces := v }

/-- A history of updates. -/
def run : State → List Op → Outcome State
  | s, [] => .ok s
  | s, o :: os => (exec s o).bind fun s => run s os

/-- `v[i]`. -/
def rd (v : List DegreeInfo) (i : Nat) : Outcome DegreeInfo :=
  match v[i]? with
  | some x => .ok x
  | none => .ub "vector index out of range"

/-- `degreeInfo(msh, cl)`, `:328-333`; `degree` and `hasUnknowns` read its fields. -/
def cellInfo (s : State) (i : Nat) : Outcome DegreeInfo := rd s.cells i
/-- `degreeInfo(msh, fc)`, `:342-347`. -/
def faceInfo (s : State) (i : Nat) : Outcome DegreeInfo := rd s.faces i
/-- `degreeInfo(msh, fcs)`, `:349-363`. -/
def facesInfo (s : State) : List Nat → Outcome (List DegreeInfo)
  | [] => .ok []
  | f :: fs => (rd s.faces f).bind fun x => (facesInfo s fs).bind fun r => .ok (x :: r)

/-- `CellDegreeInfo`, `:68-80`. -/
structure CellInfo where
  cell : DegreeInfo
  reconstruction : DegreeInfo
  gradient : DegreeInfo
  faces : List DegreeInfo
  deriving Repr, DecidableEq

/-- `cellDegreeInfo(msh, cl)`, `:384-392`, for a cell with faces `fcs`. -/
def cellDegreeInfo (s : State) (i : Nat) (fcs : List Nat) : Outcome CellInfo :=
  (rd s.cells i).bind fun c => (rd s.reconstruction i).bind fun r => (rd s.gradient i).bind fun g =>
    (facesInfo s fcs).bind fun f => .ok ⟨c, r, g, f⟩

end Verif.Adaptivity
