import Verif.Model.Well
import Verif.Model.GenerateU
import Verif.Model.CellOps

/-!
# The well of the examples in 3D

Models `pvgridder/examples/examples.py` 184-215 (`load_well_3d`): a 2D mesh with groups is put at a depth, extruded twice,
in the second extrusion the cells of some groups get another group, and the cells of that group are taken out.
-/

namespace Gridder

/-- The numbers and names in `examples.py:197-211`. -/
structure ColumnNumbers where
  /-- Depth of the base. -/
  depth : ℝ
  /-- Vectors and resolutions of the two extrusions. -/
  below : List ℝ
  layersBelow : ℤ
  above : List ℝ
  layersAbove : ℤ
  /-- Groups that do not go on above, and the name given to their cells there. -/
  dropped : List String
  name : String

/-- What comes out: the extruded mesh with its table, the numbers of its cells that are extracted and their groups.
Simplified: of the arrays of the extracted mesh only "CellGroup" is followed (all arrays: `extractCells`), and
its points are those of the extruded mesh. -/
structure Column where
  mesh : UMesh ℝ
  table : Dict String Int
  kept : List ℕ
  groups : List ℤ

/-- `examples.py:199-201` `{groups["Cement"], groups["Matrix"]}`. -/
def droppedCodes (groups : Dict String Int) : List String → Py (List Int)
  | [] => .ok []
  | s :: rest =>
    match Dict.get? groups s with
    | none => .error .keyError
    | some v =>
      match droppedCodes groups rest with
      | .error e => .error e
      | .ok vs => .ok (v :: vs)

/-- `examples.py:198-201`: what the function `inactive` returns for the mesh; a mesh without the array or the table raises
`KeyError`. -/
def inactiveMask (names : List String) (mesh : Surf ℝ UTopo) : Py (List Bool) :=
  match mesh.topo.table, groupCodes mesh.topo.cellData with
  | some groups, some codes =>
    match droppedCodes groups names with
    | .error e => .error e
    | .ok vs => .ok (codes.map fun x => decide (x ∈ vs))
  | _, _ => .error .keyError

/-- `examples.py:197` `mesh2d.points[:, 2] = -30.0`. -/
def putAt (z : ℝ) (mesh : Surf ℝ UTopo) : Surf ℝ UTopo := ⟨mesh.points.map fun p => Function.update p 2 z, mesh.topo⟩

/-- `examples.py:204-206`: the two calls of `add`. -/
def columnArgs (w : ColumnNumbers) (mask : List Bool) : List (ExtrArgs ℝ (Opts (Resolution ℝ × Option String))) :=
  [⟨1, w.below, none, none, ⟨(.int w.layersBelow, none), .none⟩⟩,
    ⟨1, w.above, none, none, ⟨(.int w.layersAbove, none), .dict [(w.name, .callMask mask)]⟩⟩]

/-- `examples.py:209-211`: the extraction of the cells of the other groups. -/
def takeOut (name : String) (M : UMesh ℝ) (table : Dict String Int) : Py Column :=
  match Dict.get? table name, Dict.get? M.cellData "CellGroup" with
  | some code, some groups =>
    match (extractCells (vtkExtract (groups.vals.map fun x => x != code)) [("CellGroup", groups.vals)]).1 with
    | .error e => .error e
    | .ok (ids, data) =>
      match Dict.get? data "CellGroup" with
      | some g => .ok ⟨M, table, ids, g⟩
      | none => .error .keyError
  | _, _ => .error .keyError

/-- `examples.py:197-213` on any 2D mesh. -/
noncomputable def wellColumn (vtk : VtkOracle ℝ) (rot : V3 ℝ → ℝ → V3 ℝ → V3 ℝ → V3 ℝ) (w : ColumnNumbers)
    (mesh : Surf ℝ UTopo) : Py Column :=
  match inactiveMask w.dropped mesh with
  | .error e => .error e
  | .ok mask =>
    match (Extr.new (putAt w.depth mesh) none none).run rot (columnArgs w mask) with
    | .error e => .error e
    | .ok ex =>
      match extrudeU vtk [] "default" ex with
      | .error e => .error e
      | .ok (M, table) => takeOut w.name M table

/-- `examples.py:197-211`: the numbers of `load_well_3d`. -/
noncomputable def columnNumbers : ColumnNumbers where
  depth := -30
  below := [0, 0, 30]
  layersBelow := 10
  above := [0, 0, 3]
  layersAbove := 3
  dropped := ["Cement", "Matrix"]
  name := "Inactive"

end Gridder
