import Verif.Model.Outcome
/-!
Flat polygon container, `loaders/polygon.hpp`.
Iterators are offsets into the data vector.
-/
namespace Verif.PolygonStore

/-- `polygon_store::add_polygon`, `loaders/polygon.hpp:134-138`. -/
def addPolygon (data : List Nat) (pointIds : List Nat) : List Nat :=
  (data ++ [pointIds.length]) ++ pointIds

/-- `polygon::number_of_edges`, `loaders/polygon.hpp:40-44`. -/
def numberOfEdges (data : List Nat) (pos : Nat) : Outcome Nat :=
  match data[pos]? with
  | some n => .ok n
  | none => .ub "dereferencing end iterator"

/-- `polygon::point_ids`, `loaders/polygon.hpp:46-55`: the slice `[pos+1, pos+n+1)`. -/
def pointIds (data : List Nat) (pos : Nat) : Outcome (List Nat) :=
  (numberOfEdges data pos).bind fun n =>
    if pos + n + 1 ≤ data.length then .ok ((data.drop (pos + 1)).take n)
    else .ub "iterator advanced past the end"

/-- `polygon_iterator::operator++` and `advance`, `loaders/polygon.hpp:65-72,86-92`. -/
def next (data : List Nat) (pos : Nat) : Outcome Nat :=
  if pos = data.length then .ok pos
  else match data[pos]? with
    | none => .ub "iterator past the end"
    | some n => if pos + (n + 1) ≤ data.length then .ok (pos + (n + 1))
                else .ub "iterator advanced past the end"

/-- The loop `for (it = begin(); it != end(); ++it) out.push_back((*it).point_ids())`,
with `begin`/`end` from `loaders/polygon.hpp:140-148`. `fuel` bounds the number of iterations;
running out of fuel is reported as a distinct outcome. -/
def collect (data : List Nat) : (fuel : Nat) → (pos : Nat) → Outcome (List (List Nat))
  | 0, pos => if pos = data.length then .ok [] else .ub "fuel"
  | fuel + 1, pos =>
    if pos = data.length then .ok []
    else (pointIds data pos).bind fun ids =>
      (next data pos).bind fun pos' =>
        (collect data fuel pos').bind fun rest => .ok (ids :: rest)

/-- The store after adding the polygons in order to an empty store. -/
def build (polys : List (List Nat)) : List Nat := polys.foldl addPolygon []

end Verif.PolygonStore
