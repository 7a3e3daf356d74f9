import Verif.Model.Basic

/-!
# Splitting and merging polylines

Models `pvgridder/utils/_misc.py` 1427-1482 (`split_lines`) and 991-1065 (`merge_lines`).
-/

namespace Gridder

/-- A Python loop (or comprehension) over a list that stops at the first exception. -/
def mapPy {α β : Type _} (f : α → Py β) : List α → Py (List β)
  | [] => .ok []
  | a :: l =>
    match f a with
    | .error e => .error e
    | .ok b =>
      match mapPy f l with
      | .error e => .error e
      | .ok bs => .ok (b :: bs)

/-- A loop over `d.items()` that builds a dictionary with the same keys. -/
def mapDict {ν μ : Type _} (f : ν → Py μ) (d : Dict String ν) : Py (Dict String μ) :=
  mapPy (fun kv => (f kv.2).map fun v => (kv.1, v)) d

/-- `xs[i]` with a node or cell number. -/
def entry {α : Type _} (xs : List α) (i : Nat) : Py α :=
  match xs[i]? with
  | some x => .ok x
  | none => .error .indexError

/-- `xs[ids]` with an integer array of node numbers. -/
def gather {α : Type _} (xs : List α) (ids : List Nat) : Py (List α) :=
  mapPy (entry xs) ids

/-- A polydata of lines and polylines, as left by `extract_cells_by_type` (`_misc.py:1445-1448`).
The flat arrays `[n, id, ...]` are represented by the lists of ids.  Data arrays are dictionaries of
rows (a row being a scalar, a vector or a string). -/
structure LineMesh (P D : Type _) where
  points : List P
  lines : List (List Nat)
  pointData : Dict String (List D)
  cellData : Dict String (List D)
  deriving DecidableEq

/-- `np.column_stack((ids[:-1], ids[1:]))` (`_misc.py:1454-1456`, 1035). -/
def segments (ids : List Nat) : List (List Nat) :=
  List.zipWith (fun a b => [a, b]) ids.dropLast ids.tail

section
variable {P D : Type _}

/-- Loop body of `split_lines` (`_misc.py:1451-1480`) for line number `i`. -/
def splitLine (m : LineMesh P D) (asLines : Bool) (i : Nat) (ids : List Nat) : Py (LineMesh P D) :=
  let lines := if asLines then segments (List.range ids.length) else [List.range ids.length]
  match gather m.points ids with
  | .error e => .error e
  | .ok points =>
    match mapDict (fun v => gather v ids) m.pointData with
    | .error e => .error e
    | .ok pointData =>
      match mapDict (fun v => (entry v i).map (List.replicate lines.length)) m.cellData with
      | .error e => .error e
      | .ok cellData => .ok ⟨points, lines, pointData, cellData⟩

/-- `_misc.py:1427-1482` `split_lines`. -/
def splitLines (m : LineMesh P D) (asLines : Bool) : Py (List (LineMesh P D)) :=
  mapPy (fun p => splitLine m asLines p.2 p.1) m.lines.zipIdx

/-- `_misc.py:1018-1023`: the names of the arrays common to all meshes.  Simplified: Python iterates
over the resulting set in an arbitrary order; here it is the order of the first mesh. -/
def commonKeys (data : LineMesh P D → Dict String (List D)) (l : LineMesh P D)
    (ls : List (LineMesh P D)) : List String :=
  (data l).keys.filter fun k => ls.all fun l' => ((data l').get? k).isSome

/-- The cells of the merged lines (`_misc.py:1034-1042`), `offset` being the number of points so far. -/
def placeLines (asLines : Bool) : Nat → List (LineMesh P D) → List (List Nat)
  | _, [] => []
  | offset, l :: ls =>
    let ids := (List.range l.points.length).map (· + offset)
    (if asLines then segments ids else [ids]) ++ placeLines asLines (offset + l.points.length) ls

/-- One array of the merged mesh (`_misc.py:1044-1058`, 1062-1066): `rep l` copies of what line `l` has. -/
def mergeLineArray (data : LineMesh P D → Dict String (List D)) (rep : LineMesh P D → Nat)
    (pieces : List (LineMesh P D)) (k : String) : Py (String × List D) :=
  match mapPy (fun l => (data l).get k) pieces with
  | .error e => .error e
  | .ok vs => .ok (k, (pieces.zip vs).flatMap fun lv => (List.replicate (rep lv.1) lv.2).flatten)

/-- `_misc.py:991-1068` `merge_lines`, before the final `merge_points()` of VTK, which renumbers
coincident points.  `np.concatenate` of an empty list raises `ValueError`. -/
def mergeLines (asLines : Bool) (ls : List (LineMesh P D)) : Py (LineMesh P D) :=
  match ls with
  | [] => .error .indexError
  | l :: rest =>
    match mapPy (fun m => splitLines m false) ls with
    | .error e => .error e
    | .ok pieces =>
      let pieces := pieces.flatten
      if pieces.isEmpty then .error .valueError
      else
        match mapPy (mergeLineArray (·.pointData) (fun _ => 1) pieces) (commonKeys (·.pointData) l rest) with
        | .error e => .error e
        | .ok pointData =>
          match mapPy (mergeLineArray (·.cellData)
              (fun l => if asLines then l.points.length - 1 else 1) pieces)
              (commonKeys (·.cellData) l rest) with
          | .error e => .error e
          | .ok cellData =>
            .ok ⟨pieces.flatMap (·.points), placeLines asLines 0 pieces, pointData, cellData⟩

end

end Gridder
