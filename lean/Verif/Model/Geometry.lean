import Verif.Model.CellTypes
import Mathlib.Data.List.Sort
import Mathlib.Data.List.Dedup

/-!
# Cell connectivity, faces and edges, neighbourhood

Models `pvgridder/utils/_properties.py` 35-88 (`get_cell_connectivity`), `pvgridder/utils/_misc.py`
295-480 (`extract_cell_geometry`), 1527-1563 (`_celltype_to_faces`) and
`pvgridder/utils/_connectivity.py` 15-88 (`get_neighborhood`, `get_connectivity`).
-/

namespace Gridder

/-- Connectivity of one cell: node ids, or the faces of a polyhedron (`_properties.py:64`). -/
inductive Conn
  | nodes (ids : List Nat)
  | faces (fs : List (List Nat))
  deriving DecidableEq, Repr

/-- What VTK stores of the cells of an unstructured grid: `GetCells`, `celltypes`,
`GetPolyhedronFaces`, `GetPolyhedronFaceLocations` (one, possibly empty, list per cell). -/
structure RawCells where
  cells : List (List Nat)
  types : List Nat
  faces : List (List Nat)
  locations : List (List Nat)

/-- `[faces[face] for face in location]` (`_properties.py:74`). -/
def gatherFaces (faces : List (List Nat)) : List Nat → Py (List (List Nat))
  | [] => .ok []
  | i :: is =>
    match faces[i]? with
    | none => .error .indexError
    | some f =>
      match gatherFaces faces is with
      | .error e => .error e
      | .ok fs => .ok (f :: fs)

/-- The loop of `_properties.py:70-74`, cell by cell (`locations` has one entry per cell). -/
def withPolyhedra (faces : List (List Nat)) : List (List Nat) → List (List Nat) → Py (List Conn)
  | [], _ => .ok []
  | c :: cs, locs =>
    let loc := locs.headD []
    match (if loc.isEmpty then .ok (Conn.nodes c) else
        match gatherFaces faces loc with
        | .error e => .error e
        | .ok fs => .ok (Conn.faces fs) : Py Conn) with
    | .error e => .error e
    | .ok c =>
      match withPolyhedra faces cs locs.tail with
      | .error e => .error e
      | .ok cs => .ok (c :: cs)

/-- `_properties.py:35-74` `get_cell_connectivity` without `flatten`. -/
def cellConnectivity (g : RawCells) : Py (List Conn) :=
  if g.types.any (· = vtkPolyhedron) then withPolyhedra g.faces g.cells g.locations
  else .ok (g.cells.map .nodes)

/-- One cell of the flattened array (`_properties.py:79-83`): a polyhedron without faces raises
`TypeError` (`len` of an integer); faces of another type make a ragged array (`ValueError`). -/
def flattenCell (t : Nat) : Conn → Py (List Nat)
  | .faces fs =>
    if t = vtkPolyhedron then
      let cell := fs.length :: fs.flatMap fun c => c.length :: c
      .ok (cell.length :: cell)
    else .error .valueError
  | .nodes ids =>
    if t = vtkPolyhedron then
      match ids with
      | [] => .ok [1, 0]
      | _ :: _ => .error .typeError
    else .ok (ids.length :: ids)

/-- `_properties.py:76-85` `get_cell_connectivity(flatten=True)`, given the cells. -/
def flattenCells : List Conn → List Nat → Py (List Nat)
  | c :: cs, t :: ts =>
    match flattenCell t c with
    | .error e => .error e
    | .ok block =>
      match flattenCells cs ts with
      | .error e => .error e
      | .ok rest => .ok (block ++ rest)
  | _, _ => .ok []

/-- `_misc.py:1527-1563` `_celltype_to_faces`; the arrays of one cell type are concatenated in the
order of the dictionary. -/
def faceTable : Dict Nat (List (List Nat)) :=
  [(10, [[1, 2, 3], [0, 3, 2], [0, 1, 3], [0, 2, 1]]),
   (14, [[0, 3, 2, 1]] ++ [[0, 1, 4], [1, 2, 4], [2, 3, 4], [3, 0, 4]]),
   (13, [[0, 2, 1], [3, 4, 5]] ++ [[0, 1, 4, 3], [1, 2, 5, 4], [0, 3, 5, 2]]),
   (12, [[0, 3, 2, 1], [4, 5, 6, 7], [0, 1, 5, 4], [1, 2, 6, 5], [2, 3, 7, 6], [0, 4, 7, 3]]),
   (11, [[0, 2, 3, 1], [4, 5, 7, 6], [0, 1, 5, 4], [1, 3, 7, 5], [3, 2, 6, 7], [0, 4, 6, 2]])]

/-- `cell[v]` for one row of indices. -/
def takeIds (cell : List Nat) : List Nat → Py (List Nat)
  | [] => .ok []
  | i :: is =>
    match cell[i]? with
    | none => .error .indexError
    | some x =>
      match takeIds cell is with
      | .error e => .error e
      | .ok xs => .ok (x :: xs)

/-- `cell[v]` for all rows. -/
def takeRows (cell : List Nat) : List (List Nat) → Py (List (List Nat))
  | [] => .ok []
  | r :: rs =>
    match takeIds cell r with
    | .error e => .error e
    | .ok f =>
      match takeRows cell rs with
      | .error e => .error e
      | .ok fs => .ok (f :: fs)

/-- Faces of one cell of type `t` of a 3D mesh (`_misc.py:421-459`).  `same` says that all cells have
the same type, in which case other types raise `KeyError`; otherwise, the error message itself fails:
`celltype` is a numpy integer without attribute `name` (`AttributeError`, here `typeError`). -/
def cellFaces (same : Bool) (t : Nat) (c : Conn) : Py (List (List Nat)) :=
  if t = vtkPolyhedron then
    match c with
    | .faces fs => .ok fs
    | .nodes [] => .ok []
    | .nodes _ => .error .typeError
  else
    match faceTable.get? t with
    | some table =>
      match c with
      | .nodes ids => takeRows ids table
      | .faces _ => .error .typeError
    | none =>
      if same then .error .keyError
      else if t = 0 then .ok []
      else .error .typeError

/-- Edges of one cell of type `t` of a 1D or 2D mesh (`_misc.py:385-402`), an edge being a list of two
nodes.  For an empty cell both branches give no edge. -/
def cellEdges (t : Nat) (c : Conn) : Py (List (List Nat)) :=
  match c with
  | .faces _ => .error .typeError
  | .nodes ids =>
    if t = 3 ∨ t = 4 then .ok (List.zipWith (fun a b => [a, b]) ids.dropLast ids.tail)
    else if t = vtkPixel then
      match takeIds ids [0, 1, 3, 2] with
      | .error e => .error e
      | .ok ids => .ok (List.zipWith (fun a b => [a, b]) ids (ids.rotate 1))
    else .ok (List.zipWith (fun a b => [a, b]) ids (ids.rotate 1))

/-- The cell types accepted in 1D and 2D (`_misc.py:369-377`). -/
def edgeTypes : List Nat := [0, 3, vtkPixel, vtkPolygon, 4, vtkQuad, vtkTriangle]

/-- Faces (edges) of all cells. -/
def mapCells (f : Nat → Conn → Py (List (List Nat))) :
    List Nat → List Conn → Py (List (List (List Nat)))
  | t :: ts, c :: cs =>
    match f t c with
    | .error e => .error e
    | .ok x =>
      match mapCells f ts cs with
      | .error e => .error e
      | .ok xs => .ok (x :: xs)
  | _, _ => .ok []

/-- `_misc.py:363-459`: the faces or edges of every cell. -/
def allFaces (types : List Nat) (conns : List Conn) : Py (List (List (List Nat))) :=
  match meshDim types with
  | .error e => .error e
  | .ok d =>
    if d = 1 ∨ d = 2 then
      if types.any fun t => decide (t ∉ edgeTypes) then .error .notImplemented
      else mapCells cellEdges types conns
    else mapCells (cellFaces (types.all fun t => decide (t = types.headD 0))) types conns

/-- `tuple(sorted(set(c)))` (`_misc.py:330`). -/
def faceKey (c : List Nat) : List Nat := c.dedup.insertionSort (· ≤ ·)

/-- One entry of `cell_map`, `cells_` and `cell_ids` (`_misc.py:321-342`). -/
structure FaceRow where
  key : List Nat
  face : List Nat
  ids : List Nat
  deriving DecidableEq, Repr

/-- Loop body (`_misc.py:329-342`): append the cell to the row with the same key, or add a row. -/
def addFace (i : Nat) (c : List Nat) : List FaceRow → List FaceRow
  | [] => [⟨faceKey c, c, [i]⟩]
  | r :: rows =>
    if r.key = faceKey c then { r with ids := r.ids ++ [i] } :: rows
    else r :: addFace i c rows

/-- Loop over the faces of cell `i`. -/
def addCell (i : Nat) (faces : List (List Nat)) (rows : List FaceRow) : List FaceRow :=
  faces.foldl (fun rows c => addFace i c rows) rows

/-- Loop over the cells (`_misc.py:325`), numbered from `i`. -/
def addCells : Nat → List (List (List Nat)) → List FaceRow → List FaceRow
  | _, [], rows => rows
  | i, c :: cs, rows => addCells (i + 1) cs (addCell i c rows)

/-- One row of `tmp` (`_misc.py:344-346`): the ids followed by `-1`. -/
def padRow (w : Nat) (ids : List Nat) : List Int :=
  ids.map (fun i : Nat => (i : Int)) ++ List.replicate (w - ids.length) (-1)

/-- What the code looks at in the resulting `pv.PolyData`: the faces (or lines) and the array
`vtkOriginalCellIds` with its number of columns. -/
structure Geometry where
  faces : List (List Nat)
  width : Nat
  ids : List (List Int)
  deriving DecidableEq, Repr

/-- `_misc.py:315-355` `get_polydata_from_points_cells`; `max` of an empty list raises `ValueError`. -/
def faceGeometry (cells : List (List (List Nat))) : Py Geometry :=
  match addCells 0 cells [] with
  | [] => .error .valueError
  | r :: rows =>
    let w := ((r :: rows).map fun r => r.ids.length).foldl max 0
    .ok ⟨(r :: rows).map (·.face), w, (r :: rows).map fun r => padRow w r.ids⟩

/-- `np.ptp(tmp, axis=0) > 0` for column `k`: not all entries are equal. -/
def columnVaries (rows : List (List Int)) (k : Nat) : Bool :=
  rows.any fun r => decide (r[k]? ≠ (rows.headD [])[k]?)

/-- `_misc.py:405-419`, 463-478: drop faces of zero size and then the constant columns; `positive` is
VTK's answer.  `np.ptp` of an array without rows raises `ValueError`. -/
def dropCollapsed (positive : List Nat → Bool) (g : Geometry) : Py Geometry :=
  if g.faces.all positive then .ok g
  else
    let ids := ((g.faces.zip g.ids).filter fun r => positive r.1).map (·.2)
    if ids.isEmpty then .error .valueError
    else
      let cols := (List.range g.width).filter (columnVaries ids)
      .ok ⟨g.faces.filter positive, cols.length,
        ids.map fun r => cols.map fun k => r.getD k (-1)⟩

/-- `_misc.py:295-480` `extract_cell_geometry`, from the connectivity on.  With `removeGhost` false the
ghost array is dropped first, so the caller sees the cells VTK then returns. -/
def extractCellGeometry (positive : List Nat → Bool) (removeGhost : Bool) (types : List Nat)
    (conns : List Conn) : Py Geometry :=
  match allFaces types conns with
  | .error e => .error e
  | .ok cells =>
    match faceGeometry cells with
    | .error e => .error e
    | .ok g => if removeGhost then dropCollapsed positive g else .ok g

/-- `for i1, i2 in ids`: rows must have exactly two entries.  A one-column array comes back from VTK
with one dimension, so that unpacking raises `TypeError`. -/
def unpackPairs (g : Geometry) : Py (List (Int × Int)) :=
  if g.width = 2 then .ok (g.ids.map fun r => (r.getD 0 (-1), r.getD 1 (-1)))
  else if g.width = 1 then .error .typeError
  else .error .valueError

/-- Append `x` to list number `i` (`_connectivity.py:44-45`). -/
def appendAt (ns : List (List Nat)) (i x : Nat) : List (List Nat) := ns.modify i (· ++ [x])

/-- `_connectivity.py:40-45`. -/
def fillNeighbors : List (Int × Int) → List (List Nat) → List (List Nat)
  | [], ns => ns
  | (i1, i2) :: ps, ns =>
    if i1 = -1 ∨ i2 = -1 then fillNeighbors ps ns
    else fillNeighbors ps (appendAt (appendAt ns i1.toNat i2.toNat) i2.toNat i1.toNat)

/-- `_connectivity.py:15-47` `get_neighborhood`; `n` is the number of cells of the input. -/
def getNeighborhood (n : Nat) (g : Py Geometry) : Py (List (List Nat)) :=
  match g with
  | .error e => .error e
  | .ok g =>
    match unpackPairs g with
    | .error e => .error e
    | .ok ps => .ok (fillNeighbors ps (List.replicate n []))

/-- `_connectivity.py:50-88` `get_connectivity`: the points and lines of the result.  `centers` are the
rows of the centre array, already known to be a 2D array with `ncols` columns.
Simplified: pyvista is assumed to accept an empty list of lines. -/
def getConnectivity {V : Type _} (n : Nat) (ncols : Nat) (centers : List V) (g : Py Geometry) :
    Py (List V × List (Nat × Nat)) :=
  if centers.length ≠ n ∨ ncols ≠ 3 then .error .valueError
  else
    match g with
    | .error e => .error e
    | .ok g =>
      match unpackPairs g with
      | .error e => .error e
      | .ok ps => .ok (centers, (ps.filter fun p => p.1 ≠ -1 ∧ p.2 ≠ -1).map fun p =>
          (p.1.toNat, p.2.toNat))

end Gridder
