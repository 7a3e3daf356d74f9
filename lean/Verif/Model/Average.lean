import Verif.Model.Lines
import Verif.Model.Extrude

/-!
# Averaging points and boundary polygons

Models `pvgridder/utils/_misc.py` 18-96 (`average_points`) and 232-292 (the grouping of rings in
`extract_boundary_polygons`).
-/

namespace Gridder

section average
variable {K : Type _} [Field K]

/-- Body of the loop over the close pairs (`_misc.py:46-68`) on `groups` and `group_map`. -/
def averageStep (s : List (List Nat) × Dict Nat Nat) (p : Nat × Nat) : List (List Nat) × Dict Nat Nat :=
  match s.2.get? p.1, s.2.get? p.2 with
  | some gi, none => (s.1.modify gi (· ++ [p.2]), s.2.set p.2 gi)
  | none, some gj => (s.1.modify gj (· ++ [p.1]), s.2.set p.1 gj)
  | some gi, some gj =>
    if gi ≠ gj then
      ((s.1.modify gi (· ++ s.1.getD gj [])).set gj [],
        (s.1.getD gj []).foldl (fun m k => m.set k gi) s.2)
    else s
  | none, none => (s.1 ++ [[p.1, p.2]], (s.2.set p.1 s.1.length).set p.2 s.1.length)

/-- The groups of points (`_misc.py:43-68`).  `pairs` is the set returned by `query_pairs`, in the order in
which Python happens to enumerate it. -/
def averageGroups (pairs : List (Nat × Nat)) : List (List Nat) :=
  (pairs.foldl averageStep ([], [])).1

/-- `points[group].mean(axis=0)`. -/
def meanPoint (points : List (V3 K)) (group : List Nat) : V3 K :=
  fun ax => (group.map fun i => pt points i ax).sum / (group.length : K)

/-- Body of the loop over the groups (`_misc.py:73-78`) on `point_map` and `new_points`. -/
def averageMove (points : List (V3 K)) (s : List Nat × List (V3 K)) (group : List Nat) :
    List Nat × List (V3 K) :=
  match group with
  | [] => s
  | g :: _ => (group.foldl (fun m i => m.set i g) s.1, s.2.set g (meanPoint points group))

/-- `point_map` and `new_points` (`_misc.py:70-78`). -/
def averageMap (points : List (V3 K)) (pairs : List (Nat × Nat)) : List Nat × List (V3 K) :=
  (averageGroups pairs).foldl (averageMove points) (List.range points.length, points)

/-- The entries that differ from the previous one, `prev` being the one before the first. -/
def dropSame (prev : Nat) : List Nat → List Nat
  | [] => []
  | a :: l => if a = prev then dropSame a l else a :: dropSame a l

/-- `cell[np.insert(np.diff(cell), 0, 1) != 0]`: the first entry and those that differ from the previous one. -/
def dropRepeats : List Nat → List Nat
  | [] => []
  | a :: l => a :: dropSame a l

/-- `decimate` (`_misc.py:37-41`); the boolean index of an empty cell raises. -/
def decimateFace (cell : List Nat) (close : Bool) : Py (List Nat) :=
  match cell with
  | [] => .error .indexError
  | _ =>
    let cell := dropRepeats cell
    .ok (if close ∧ cell.head? = cell.getLast? then cell.dropLast else cell)

/-- `decimate(point_map[face], close=True)`. -/
def averageFace (pointMap face : List Nat) : Py (List Nat) :=
  match gather pointMap face with
  | .error e => .error e
  | .ok f => decimateFace f true

/-- The faces and their original numbers (`_misc.py:80-88`). -/
def averageFaces (pointMap : List Nat) (faces : List (List Nat)) : Py (List (List Nat) × List Nat) :=
  match mapPy (averageFace pointMap) faces with
  | .error e => .error e
  | .ok irregular =>
    .ok (irregular.filter (2 < ·.length),
      (irregular.zipIdx.filter (2 < ·.1.length)).map Prod.snd)

/-- `_misc.py:18-96` `average_points`, before the final `clean()`: points, faces, `vtkOriginalCellIds`
(none without faces). -/
def averagePoints (points : List (V3 K)) (faces : List (List Nat)) (nLines : Nat) (pairs : List (Nat × Nat)) :
    Py (List (V3 K) × List (List Nat) × Option (List Nat)) :=
  let (pointMap, newPoints) := averageMap points pairs
  match (if faces = [] then .ok ([], none) else (averageFaces pointMap faces).map fun r => (r.1, some r.2)) with
  | .error e => .error e
  | .ok (faces, ids) => if 0 < nLines then .error .notImplemented else .ok (newPoints, faces, ids)

end average

section rings

/-- `itertools.permutations(range(n), 2)`. -/
def orderedPairs (n : Nat) : List (Nat × Nat) :=
  (List.range n).flatMap fun i => ((List.range n).filter (· ≠ i)).map fun j => (i, j)

/-- Body of the loop over pairs of rings (`_misc.py:246-253`) on `holes`; `within i j` says that the area of
`i` is greater than that of `j` and that `i` contains `j` (`shapely`). -/
def holeStep (within : Nat → Nat → Bool) (holes : Dict Nat Nat) (p : Nat × Nat) : Dict Nat Nat :=
  if (holes.get? p.1).isSome ∨ (holes.get? p.2).isSome then holes
  else if within p.1 p.2 then holes.set p.2 p.1 else holes

/-- `holes` after the loop. -/
def findHoles (within : Nat → Nat → Bool) (n : Nat) : Dict Nat Nat :=
  (orderedPairs n).foldl (holeStep within) []

/-- The groups of rings (`_misc.py:255-261`); rings are represented by their numbers. -/
def ringGroups (within : Nat → Nat → Bool) (n : Nat) : List (List Nat) :=
  let holes := findHoles within n
  let polygons := (List.range n).map fun i => if (holes.get? i).isSome then [] else [i]
  (holes.foldl (fun ps kv => ps.modify kv.2 (· ++ [kv.1])) polygons).filter (· ≠ [])

end rings

end Gridder
