import Verif.Model.Structured

/-!
# Unstructured volumes

Models the unstructured branch of `pvgridder/core/_helpers.py` 233-458
(`generate_volume_from_two_surfaces`) and the table `_extruded_celltype_map` (585-589).
-/

namespace Gridder

/-- VTK cell type codes used by the code (`pv.CellType`). -/
abbrev vtkTriangle : Nat := 5
abbrev vtkPolygon : Nat := 7
abbrev vtkPixel : Nat := 8
abbrev vtkQuad : Nat := 9
abbrev vtkVoxel : Nat := 11
abbrev vtkHexahedron : Nat := 12
abbrev vtkWedge : Nat := 13
abbrev vtkPolyhedron : Nat := 42

/-- `_helpers.py:585-589` `_extruded_celltype_map`; `max(pv.CellType)` is 81 (BEZIER_PYRAMID). -/
def extrudedCelltypeMap : List Int :=
  ((((List.replicate 82 (-1 : Int)).set vtkPixel vtkVoxel).set vtkPolygon vtkPolyhedron).set
    vtkQuad vtkHexahedron).set vtkTriangle vtkWedge

/-- `_extruded_celltype_map[celltype]`. -/
def extrudedType (t : Nat) : Int := extrudedCelltypeMap.getD t (-1)

/-- A 2D `pv.UnstructuredGrid`: points, cells (VTK type and slice of `cell_connectivity`), data. -/
structure UGrid (K δ : Type _) where
  points : List (V3 K)
  cells : List (Nat × List Nat)
  pointData : Dict String (DArr δ)
  cellData : Dict String (DArr δ)

/-- What the loop body of `_helpers.py:380-435` produces for one base cell: its slice of the
connectivity of the input surface afterwards, the final cell type, what is appended to the cell list
of layer `i`, and whether it counts as collapsed. -/
structure CellOut where
  conn : List Nat
  ctype : Int
  layer : Nat → List Nat
  collapsed : Bool

section
variable {K : Type _} [Field K] [LinearOrder K]

/-- `points[i]`; node numbers are in range. -/
def pt (points : List (V3 K)) (i : Nat) : V3 K := points.getD i 0

/-- `np.cross(u, v) @ w`. -/
def triple (u v w : V3 K) : K :=
  (u 1 * v 2 - u 2 * v 1) * w 0 + (u 2 * v 0 - u 0 * v 2) * w 1 + (u 0 * v 1 - u 1 * v 0) * w 2

/-- `_helpers.py:388` `np.allclose(*points[faces])`. -/
def isCollapsed (points : List (V3 K)) (f0 f1 : List Nat) : Bool :=
  (f0.zip f1).all fun ab => closeV3 (pt points ab.1) (pt points ab.2)

/-- `_helpers.py:394-399`: whether the base polygon has to be reversed.  A polygon with fewer than
three vertices cannot be unpacked (`ValueError`). -/
def needsReverse (points : List (V3 K)) (f0 f1 : List Nat) : Py Bool :=
  match f0, f1 with
  | a :: b :: c :: _, d :: _ =>
    let p0 := pt points a
    .ok (decide (0 ≤ triple (pt points b - p0) (pt points c - p0) (pt points d - p0)))
  | _, _ => .error .valueError

/-- `_helpers.py:405-411`: the side faces; `np.roll(f, -1)` is `f.rotate 1`. -/
def sideFaces (f0 f1 : List Nat) : List (List Nat) :=
  ((f0.zip (f0.rotate 1)).zip ((f1.rotate 1).zip f1)).map fun q =>
    [q.2.2, q.2.1, q.1.2, q.1.1]

/-- `_helpers.py:417-422`: the flat polyhedron cell of layer `i`. -/
def polyhedronLayer (nPoints : Nat) (faces : List (List Nat)) (i : Nat) : List Nat :=
  let cell := (faces.map fun f => f.length :: f.map (· + i * nPoints)).flatten
  (cell.length + 1) :: faces.length :: cell

/-- `_helpers.py:425-429`: the flat cell of layer `i` for the other types. -/
def prismLayer (nPoints : Nat) (f0 f1 : List Nat) (i : Nat) : List Nat :=
  let cell := f0 ++ f1
  cell.length :: cell.map (· + i * nPoints)

/-- `_helpers.py:373-429`: body of the loop over base cells; `t` is the entry of `celltypes`
(already mapped) and `cell0` the slice of `cell_connectivity`.  `faces[0]` is a view of that slice
except for pixels (fancy indexing copies), so reversing it writes into the input surface; `faces[1]`
is a fresh array. -/
def extrudeCell (nPoints : Nat) (points : List (V3 K)) (invert : Bool) (t : Int)
    (cell0 : List Nat) : Py CellOut :=
  if t = vtkVoxel then
    match cell0 with
    | a :: b :: c :: d :: _ =>
      let f0 := [a, b, d, c]
      let f1 := f0.map (· + nPoints)
      .ok ⟨cell0, vtkHexahedron, prismLayer nPoints f0 f1, isCollapsed points f0 f1⟩
    | _ => .error .indexError
  else
    let f0 := cell0
    let f1 := f0.map (· + nPoints)
    let collapsed := isCollapsed points f0 f1
    if t = vtkPolyhedron then
      if invert then
        match needsReverse points f0 f1 with
        | .error e => .error e
        | .ok rev =>
          let f0 := if rev then f0.reverse else f0
          let f1 := if rev then f1.reverse else f1
          let sides := sideFaces f0 f1
          .ok ⟨f0, t, polyhedronLayer nPoints (f0 :: f1.reverse :: sides), collapsed⟩
      else
        .ok ⟨f0, t, polyhedronLayer nPoints (f0 :: f1 :: sideFaces f0 f1), collapsed⟩
    else .ok ⟨f0, t, prismLayer nPoints f0 f1, collapsed⟩

/-- The loop of `_helpers.py:373-429`. -/
def extrudeCells (nPoints : Nat) (points : List (V3 K)) (invert : Bool) :
    List (Nat × List Nat) → Py (List CellOut)
  | [] => .ok []
  | (t, conn) :: rest =>
    match extrudeCell nPoints points invert (extrudedType t) conn with
    | .error e => .error e
    | .ok o =>
      match extrudeCells nPoints points invert rest with
      | .error e => .error e
      | .ok os => .ok (o :: os)

/-- `_helpers.py:363` `np.allclose(celltypes_a, celltypes_b)` with numpy broadcasting of arrays of
length 1 (type codes differ by at least 1, more than the tolerances). -/
def celltypesMatch (a b : List Nat) : Py Bool :=
  if a.length = b.length then .ok (decide (a = b))
  else if b.length = 1 then .ok (a.all fun t => b.head? = some t)
  else if a.length = 1 then .ok (b.all fun t => a.head? = some t)
  else .error .valueError

/-- The volume: what is passed to `pv.UnstructuredGrid(cells, celltypes, points)`, and its data. -/
structure VolumeOut (K δ : Type _) where
  cells : List Nat
  celltypes : List Int
  points : List (V3 K)
  pointData : Dict String (DArr δ)
  cellData : Dict String (DArr δ)

/-- `_helpers.py:369-371`: the points, layer by layer. -/
def layerPoints (perc : List K) (a b : List (V3 K)) : List (V3 K) :=
  (perc.map fun t => List.zipWith (lerp t) a b).flatten

/-- `_helpers.py:359-458` for unstructured surfaces once the positions are known.  Returns the volume
and the cells of `surface_a` afterwards (it is modified in place).  With fewer than two positions
there is no second layer and the code raises (`IndexError` or `ValueError`). -/
def generateVolumeUnstructured {δ : Type _} [OfNat δ 0] [OfNat δ 32] (invert : Bool)
    (a b : UGrid K δ) (perc : List K) : Py (VolumeOut K δ × List (Nat × List Nat)) :=
  if a.points.length ≠ b.points.length then .error .valueError
  else if ¬ (a.cells.all fun c => extrudedType c.1 != -1) then .error .valueError
  else
    match celltypesMatch (a.cells.map Prod.fst) (b.cells.map Prod.fst) with
    | .error e => .error e
    | .ok false => .error .valueError
    | .ok true =>
      let nPoints := a.points.length
      let points := layerPoints perc a.points b.points
      let n := perc.length - 1
      if n = 0 then .error .valueError
      else
        match extrudeCells nPoints points invert a.cells with
        | .error e => .error e
        | .ok outs =>
          let cells := ((List.range n).map fun i => (outs.map fun o => o.layer i).flatten).flatten
          let inactive := (List.replicate n (outs.map (·.collapsed))).flatten
          let celltypes := (List.replicate n (outs.map (·.ctype))).flatten
          let nCells := celltypes.length
          match copyArrays points.length (fun v => .ok (tileRows perc.length v)) a.pointData [] with
          | .error e => .error e
          | .ok pd =>
            match copyArrays nCells (fun v => .ok (tileRows n v)) a.cellData [] with
            | .error e => .error e
            | .ok cd =>
              .ok (⟨cells, celltypes, points, pd, flagHidden nCells inactive cd⟩,
                (a.cells.zip outs).map fun co => (co.1.1, co.2.conn))

end

/-- `_helpers.py:233-458` `generate_volume_from_two_surfaces`, unstructured branch. -/
noncomputable def generateVolumeU {δ : Type _} [OfNat δ 0] [OfNat δ 32] (invert : Bool)
    (a b : UGrid ℝ δ) (resolution : Resolution ℝ) (method : Option String) :
    Py (VolumeOut ℝ δ × List (Nat × List Nat)) :=
  if a.points.length ≠ b.points.length then .error .valueError
  else if ¬ (a.cells.all fun c => extrudedType c.1 != -1) then .error .valueError
  else
    match celltypesMatch (a.cells.map Prod.fst) (b.cells.map Prod.fst) with
    | .error e => .error e
    | .ok false => .error .valueError
    | .ok true =>
      match resolutionToPerc resolution method with
      | .error e => .error e
      | .ok perc => generateVolumeUnstructured invert a b perc

end Gridder
