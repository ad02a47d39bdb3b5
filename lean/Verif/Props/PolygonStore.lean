import Verif.Model.PolygonStore
/-! C06: the flat polygon store. -/
namespace Verif.PolygonStore

theorem foldl_add (polys : List (List Nat)) (acc : List Nat) :
    polys.foldl addPolygon acc = acc ++ polys.flatMap (fun p => p.length :: p) := by
  induction polys generalizing acc with
  | nil => simp
  | cons p ps ih => simp [ih, addPolygon]

theorem collect_from (pre : List Nat) (polys : List (List Nat)) :
    collect (pre ++ polys.flatMap (fun p => p.length :: p)) polys.length pre.length = .ok polys := by
  induction polys generalizing pre with
  | nil => simp [collect]
  | cons p ps ih =>
    have hlen : pre.length ≠ (pre ++ (p :: ps).flatMap (fun p => p.length :: p)).length := by
      simp
    have hget : (pre ++ (p :: ps).flatMap (fun p => p.length :: p))[pre.length]? = some p.length := by
      simp
    have hle : pre.length + p.length + 1 ≤ (pre ++ (p :: ps).flatMap (fun p => p.length :: p)).length := by
      simp; omega
    have hids : pointIds (pre ++ (p :: ps).flatMap (fun p => p.length :: p)) pre.length = .ok p := by
      unfold pointIds numberOfEdges
      rw [hget]
      simp only [Outcome.bind_ok]
      rw [if_pos hle]
      congr 1
      rw [List.drop_append, List.drop_eq_nil_of_le (by omega)]
      simp
    have hnext : next (pre ++ (p :: ps).flatMap (fun p => p.length :: p)) pre.length
        = .ok (pre.length + (p.length + 1)) := by
      unfold next
      rw [if_neg hlen, hget]
      simp only
      rw [if_pos (by omega)]
    simp only [List.length_cons, collect]
    rw [if_neg hlen, hids, hnext]
    simp only [Outcome.bind_ok]
    have := ih (pre ++ p.length :: p)
    simp only [List.length_append, List.length_cons] at this
    have heq : pre ++ (p :: ps).flatMap (fun p => p.length :: p)
        = (pre ++ p.length :: p) ++ ps.flatMap (fun p => p.length :: p) := by simp
    rw [heq, this]
    simp

/-- C06: iterating over the store from `begin` to `end` takes exactly as many steps as polygons were
added, never touches memory outside the store, and yields the polygons in order. -/
theorem c06_roundtrip (polys : List (List Nat)) :
    collect (build polys) polys.length 0 = .ok polys := by
  have := collect_from [] polys
  simpa [build, foldl_add] using this

/-- C06 (incremental): adding one more polygon appends it to what iteration returns. -/
theorem c06_add_appends (polys : List (List Nat)) (p : List Nat) :
    collect (addPolygon (build polys) p) (polys.length + 1) 0 = .ok (polys ++ [p]) := by
  have := c06_roundtrip (polys ++ [p])
  simpa [build] using this

example : collect (build [[0, 1, 2], [], [5, 4, 3, 2]]) 3 0 = .ok [[0, 1, 2], [], [5, 4, 3, 2]] := by decide

end Verif.PolygonStore
