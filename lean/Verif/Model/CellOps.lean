import Verif.Model.Lines
import Verif.Model.CellTypes
import Verif.Model.MeshExtrude

/-!
# Operations on cells

Models `pvgridder/utils/_misc.py` 483-580 (`extract_cells`, `extract_cells_by_dimension`), 583-673
(`fuse_cells`), 1485-1524 (`quadraticize`), and `pvgridder/utils/_properties.py` 91-207
(`get_cell_centers`).
-/

namespace Gridder

/-- Name of the array marking ghost (hidden) cells. -/
def ghostKey : String := "vtkGhostType"

/-- Cell data: arrays of rows by name. -/
abbrev CellData (D : Type _) := Dict String (List D)

section extraction
variable {D : Type _}

/-- `_misc.py:483-529` `extract_cells`.  `vtk` is `mesh.extract_cells(ind, ...)` applied to a mesh with
the given cell data: it raises, or returns the original ids of the extracted cells (array
`vtkOriginalCellIds`) and their data.  Returns the outcome and the cell data of the input afterwards. -/
def extractCells (vtk : CellData D → Py (List Nat × CellData D)) (cd : CellData D) :
    Py (List Nat × CellData D) × CellData D :=
  match cd.get? ghostKey with
  | none => (vtk cd, cd)
  | some ghost =>
    let popped := cd.pop ghostKey
    let out : Py (List Nat × CellData D) :=
      match vtk popped with
      | .error e => .error e
      | .ok (ids, data) =>
        match gather ghost ids with
        | .error e => .error e
        | .ok g => .ok (ids, data.set ghostKey g)
    (out, popped.set ghostKey ghost)

/-- What `mesh.extract_cells(mask)` returns: the cells where the mask is true, in order, with their
data. -/
def vtkExtract (mask : List Bool) (cd : CellData D) : Py (List Nat × CellData D) :=
  let ids := (List.range mask.length).filter fun i => mask.getD i false
  match mapDict (fun v => gather v ids) cd with
  | .error e => .error e
  | .ok data => .ok (ids, data)

/-- `_dimension_map[mesh.celltypes]`. -/
def cellDims (types : List Nat) : Py (List Int) := mapPy cellDim types

/-- `_misc.py:558`: `ndim`, or the dimension of the mesh. -/
def chosenDim (types : List Nat) : Option Int → Py Int
  | some n => .ok n
  | none => meshDim types

/-- `_misc.py:560-573`: the mask of `extract_cells_by_dimension`. -/
def dimensionMask (types : List Nat) (ndim : Option Int) (method : String) (keepEmpty : Bool) :
    Py (List Bool) :=
  match chosenDim types ndim with
  | .error e => .error e
  | .ok n =>
    if method = "upper" ∨ method = "lower" then
      match cellDims types with
      | .error e => .error e
      | .ok ds =>
        let mask := ds.map fun d => if method = "upper" then decide (n ≤ d) else decide (d ≤ n)
        .ok (if keepEmpty then List.zipWith (fun b t => b || decide (t = 0)) mask types else mask)
    else .error .valueError

/-- `_misc.py:532-580` `extract_cells_by_dimension`: the original ids and data of the cells returned. -/
def cellsByDimension (types : List Nat) (cd : CellData D) (ndim : Option Int) (method : String)
    (keepEmpty : Bool) : Py (List Nat × CellData D) :=
  match dimensionMask types ndim method keepEmpty with
  | .error e => .error e
  | .ok mask =>
    if mask.all id then .ok (List.range types.length, cd)
    else (extractCells (vtkExtract mask) cd).1

end extraction

section quadratic
variable {K : Type _} [Field K]

/-- `0.5 * (cell.points + np.roll(cell.points, -1, axis=0))` (`_misc.py:1509`). -/
def edgeMiddles (pts : List (V3 K)) : List (V3 K) :=
  List.zipWith (fun a b ax => (1 / 2) * (a ax + b ax)) pts (pts.rotate 1)

/-- `QUADRATIC_TRIANGLE` is 22 and `QUADRATIC_QUAD` 23; other cells raise (`_misc.py:1505-1508`). -/
def quadraticType (t : Nat) : Py Nat :=
  if t = 5 then .ok 22 else if t = 9 then .ok 23 else .error .notImplemented

/-- The loop of `_misc.py:1504-1518`: types, flat cell array and new points; `n` is the number of points
so far. -/
def quadraticLoop (points : List (V3 K)) : Nat → List (Nat × List Nat) →
    Py (List Nat × List Nat × List (V3 K))
  | _, [] => .ok ([], [], [])
  | n, (t, ids) :: cells =>
    match quadraticType t with
    | .error e => .error e
    | .ok qt =>
      match gather points ids with
      | .error e => .error e
      | .ok pts =>
        let new := edgeMiddles pts
        let cell := ids ++ (List.range new.length).map (· + n)
        match quadraticLoop points (n + new.length) cells with
        | .error e => .error e
        | .ok (types, flat, more) => .ok (qt :: types, cell.length :: cell ++ flat, new ++ more)

/-- `_misc.py:1485-1524` `quadraticize`: cell types, flat cell array and points of the result.
`np.concatenate` of an empty list raises. -/
def quadraticize (points : List (V3 K)) (cells : List (Nat × List Nat)) :
    Py (List Nat × List Nat × List (V3 K)) :=
  match quadraticLoop points points.length cells with
  | .error e => .error e
  | .ok (types, flat, new) =>
    if cells.isEmpty then .error .valueError
    else .ok (types, flat, points ++ new)

end quadratic

section centers
variable {K : Type _} [Field K] [LinearOrder K]

/-- What `get_cell_centers` reads of an unstructured grid: points, cell types, nodes of each cell
(`connectivity[i1:i2]`), faces and, per cell, the numbers of its faces. -/
structure CentreMesh (K : Type _) where
  points : List (V3 K)
  types : List Nat
  conn : List (List Nat)
  faces : List (List Nat)
  locations : List (List Nat)

/-- `centers[celltypes != EMPTY_CELL] = mesh.cell_centers().points` on an array of nan
(`_properties.py:127-134`); the sizes must agree. -/
def fillCenters : List Nat → List (V3 K) → Py (List (Option (V3 K)))
  | [], [] => .ok []
  | [], _ :: _ => .error .valueError
  | t :: ts, cs =>
    if t = 0 then
      match fillCenters ts cs with
      | .error e => .error e
      | .ok r => .ok (none :: r)
    else
      match cs with
      | [] => .error .valueError
      | c :: cs =>
        match fillCenters ts cs with
        | .error e => .error e
        | .ok r => .ok (some c :: r)

/-- Bounding box centre of a polyhedron (`_properties.py:144-156`); `min` of no point raises. -/
def boxOf (m : CentreMesh K) (i : Nat) : Py (V3 K) :=
  match gather m.points (m.conn.getD i []) with
  | .error e => .error e
  | .ok pts => if pts.isEmpty then .error .valueError else .ok (boxCenter pts)

/-- Mean of points. -/
def meanOf (pts : List (V3 K)) : V3 K := fun ax => (pts.map fun p => p ax).sum / pts.length

/-- Mean of the nodes of a polyhedron (`_properties.py:158-165`).  Simplified: a cell without nodes gives
0 here and nan in numpy. -/
def geometricOf (m : CentreMesh K) (i : Nat) : Py (V3 K) :=
  match gather m.points (m.conn.getD i []) with
  | .error e => .error e
  | .ok pts => .ok (meanOf pts)

/-- `zip(face[1:], face[2:])` with the first node in front (`_properties.py:184-190`). -/
def fan : List Nat → List (Nat × Nat × Nat)
  | [] => []
  | f :: rest => (rest.zip rest.tail).map fun vw => (f, vw.1, vw.2)

/-- Signed volume of a tetrahedron (`_properties.py:203-206`). -/
def tetraVolume (a : V3 K) (t : V3 K × V3 K × V3 K) : K :=
  triple (t.1 - a) (t.2.1 - a) (t.2.2 - a) / 6

/-- `np.average(tetras.mean(axis=1), axis=0, weights=volumes)`: raises if the weights add up to 0. -/
def tetraCentroid (a : V3 K) (ts : List (V3 K × V3 K × V3 K)) : Py (V3 K) :=
  let total := (ts.map (tetraVolume a)).sum
  if total = 0 then .error .zeroDivision
  else .ok fun ax => (ts.map fun t =>
    (t.1 ax + t.2.1 ax + t.2.2 ax + a ax) / 4 * tetraVolume a t).sum / total

/-- `mesh.points[triangles[:, 0]]`, ... (`_properties.py:187-189`). -/
def trianglePoints (points : List (V3 K)) (t : Nat × Nat × Nat) : Py (V3 K × V3 K × V3 K) :=
  match entry points t.1, entry points t.2.1, entry points t.2.2 with
  | .ok a, .ok b, .ok c => .ok (a, b, c)
  | _, _, _ => .error .indexError

/-- Centroid of a polyhedron (`_properties.py:167-209`).  Without triangle, `triangles[:, 0]` raises
`IndexError`. -/
def tetraOf (m : CentreMesh K) (i : Nat) : Py (V3 K) :=
  match mapPy (entry m.faces) (m.locations.getD i []) with
  | .error e => .error e
  | .ok faces =>
    match (m.conn.getD i []).head? with
    | none => .error .indexError
    | some a =>
      match entry m.points a with
      | .error e => .error e
      | .ok apex =>
        let tris := faces.flatMap fan
        if tris.isEmpty then .error .indexError
        else
          match mapPy (trianglePoints m.points) tris with
          | .error e => .error e
          | .ok ts => tetraCentroid apex ts

/-- Replace the centres of the polyhedra (`centers[mask] = ...`); `i` is the number of the first cell. -/
def setPolyhedra (f : Nat → Py (V3 K)) : Nat → List Nat → List (Option (V3 K)) →
    Py (List (Option (V3 K)))
  | i, t :: ts, c :: cs =>
    match (if t = vtkPolyhedron then (f i).map some else .ok c) with
    | .error e => .error e
    | .ok c =>
      match setPolyhedra f (i + 1) ts cs with
      | .error e => .error e
      | .ok cs => .ok (c :: cs)
  | _, _, _ => .ok []

/-- `_properties.py:132-209`: the centres, given VTK's own ones for the non-empty cells (or its
exception) and the version string.  `polyhedron_method` may be any string. -/
def computeCenters (version : String) (method : Option String) (m : CentreMesh K)
    (vtk : Py (List (V3 K))) : Py (List (Option (V3 K))) :=
  match vtk with
  | .error e => .error e
  | .ok cs =>
    match fillCenters m.types cs with
    | .error e => .error e
    | .ok centers =>
      if method = some "box" ∧ ¬ version < "9.5.0" then setPolyhedra (boxOf m) 0 m.types centers
      else if method = some "geometric" ∧ version ≠ "9.5.0" then
        setPolyhedra (geometricOf m) 0 m.types centers
      else if method = some "tetra" ∧ ¬ "9.5.0" < version then
        setPolyhedra (tetraOf m) 0 m.types centers
      else .ok centers

/-- `_properties.py:91-214` `get_cell_centers` of an unstructured grid: the outcome, and the cell data of
the mesh afterwards.  The ghost array is taken out first and put back last, with no `finally`; `vtk` sees
the mesh without it. -/
def getCellCenters {D : Type _} (version : String) (method : Option String) (m : CentreMesh K)
    (vtk : CellData D → Py (List (V3 K))) (cd : CellData D) :
    Py (List (Option (V3 K))) × CellData D :=
  match cd.get? ghostKey with
  | none => (computeCenters version method m (vtk cd), cd)
  | some ghost =>
    let popped := cd.pop ghostKey
    match computeCenters version method m (vtk popped) with
    | .error e => (.error e, popped)
    | .ok c => (.ok c, popped.set ghostKey ghost)

end centers

section fuse
variable {P D : Type _} [DecidableEq P]

/-- Index of the first point equal to `p` (`_misc.py:632-639`); `[0]` of an empty array raises. -/
def firstPoint (points : List P) (p : P) : Py Nat :=
  match points.findIdx? (· == p) with
  | some i => .ok i
  | none => .error .indexError

/-- State of the loop of `fuse_cells`: connectivity, cell types, mask. -/
structure FuseState where
  conn : List (List Nat)
  types : List Nat
  mask : List Bool
  deriving DecidableEq, Repr

/-- Loop body (`_misc.py:611-664`) for the cells `ind` of one group.  `dim` is the dimension of the
extracted cells, `outline` their boundary polygons, each given by its points in order (`none` is
`None`).  The points of a polygon being distinct, `sorted_ids` is `ids` (simplified). -/
def fuseGroup (points : List P) (dim : List Nat → Int) (outline : List Nat → Option (List (List P)))
    (ind : List Nat) (s : FuseState) : Py FuseState :=
  if ind.any fun i => decide (s.mask.length ≤ i) then .error .indexError
  else
    let mask := ind.tail.foldl (fun m i => m.set i false) s.mask
    if dim ind ≠ 2 then .error .notImplemented
    else
      match outline ind with
      | none => .error .valueError
      | some [] => .error .valueError
      | some (_ :: _ :: _) => .error .valueError
      | some [poly] =>
        match mapPy (firstPoint points) poly with
        | .error e => .error e
        | .ok ids =>
          match ind with
          | [] => .error .indexError
          | i :: rest =>
            .ok ⟨rest.foldl (fun c j => c.set j []) (s.conn.set i ids),
              rest.foldl (fun t j => t.set j 0) (s.types.set i vtkPolygon), mask⟩

/-- Loop over the groups. -/
def fuseLoop (points : List P) (dim : List Nat → Int) (outline : List Nat → Option (List (List P))) :
    List (List Nat) → FuseState → Py FuseState
  | [], s => .ok s
  | ind :: inds, s =>
    match fuseGroup points dim outline ind s with
    | .error e => .error e
    | .ok s => fuseLoop points dim outline inds s

/-- `_misc.py:583-673` `fuse_cells`, from the list of groups of cell numbers (`np.flatnonzero` of masks)
to the cells, types and cell data of the result, before the final `clean()`. -/
def fuseCells (points : List P) (conn : List (List Nat)) (types : List Nat) (cd : CellData D)
    (dim : List Nat → Int) (outline : List Nat → Option (List (List P))) (inds : List (List Nat)) :
    Py (List (List Nat) × List Nat × CellData D) :=
  match inds with
  | [] => .error .indexError
  | _ =>
    match fuseLoop points dim outline inds ⟨conn, types, List.replicate conn.length true⟩ with
    | .error e => .error e
    | .ok s =>
      match (extractCells (vtkExtract s.mask) cd).1 with
      | .error e => .error e
      | .ok (ids, data) =>
        match gather s.conn ids, gather s.types ids with
        | .ok c, .ok t => .ok (c, t, data)
        | _, _ => .error .indexError

end fuse

end Gridder
