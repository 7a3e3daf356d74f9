import Verif.Model.VoronoiMesh
import Verif.Model.VoronoiItems
import Verif.Model.MeshExtrude

/-!
# What Voronoi meshes are made from

Models `MeshBase.__init__` (`pvgridder/core/_base.py` 73-82), `VoronoiMesh2D.__init__` and `add`
(`pvgridder/core/voronoi.py` 46-101) with the arguments of the caller: which coordinates are really set to 0, and what
happens to the array that was given.  Also the loop of `add_polyline` over several lines (249-320).
-/

namespace Gridder

/-- `_base.py:73-82`: the default group, the ignored groups and the items of a new mesh; `ignore` and `items` are copied,
an empty name counts as none. -/
def newMeshBase {ι : Type _} (default : Option String) (ignore : Option (List String)) (items : Option (List ι)) :
    String × List String × List ι :=
  ((default.filter (· ≠ "")).getD "default", ignore.getD [], items.getD [])

/-- The classes of pyvista's datasets. -/
inductive GridKind | image | rectilinear | structured | unstructured | poly
  deriving DecidableEq, Repr

/-- Image data and rectilinear grids have no array of points: `mesh.points` builds one each time it is read. -/
def GridKind.implicit : GridKind → Bool
  | .image => true
  | .rectilinear => true
  | _ => false

/-- A dataset: class, points, nodes of the cells, labels of the cells. -/
structure VDataset (K : Type _) where
  kind : GridKind
  points : List (V3 K)
  cells : List (List Nat)
  labels : LMesh

section
variable {K : Type _} [Field K] [LinearOrder K]

/-- `mesh.points[:, self.axis] = 0.0` (`voronoi.py:60`, 97), on a copy of the mesh: without effect if `mesh.points` is
a new array. -/
def VDataset.project (axis : Fin 3) (m : VDataset K) : VDataset K :=
  if m.kind.implicit then m else { m with points := m.points.map fun p => Function.update p axis 0 }

/-- `get_cell_centers`; `centre` is the centre of a cell with the given corners. -/
def VDataset.centers (centre : List (V3 K) → V3 K) (m : VDataset K) : List (V3 K) :=
  (cornersOf m.points m.cells).map centre

/-- `extract_cells` (`voronoi.py:390`); simplified: the points that are not used any more are kept. -/
def VDataset.part (m : VDataset K) (ids : List Nat) : VDataset K :=
  ⟨.unstructured, m.points, ids.filterMap (m.cells[·]?), subLabels m.labels ids⟩

/-- An item: its mesh and the arguments of `add` (`voronoi.py:98`). -/
structure VAdded (K : Type _) where
  mesh : VDataset K
  group : GroupArg
  priority : Int

/-- The background mesh as `generate_mesh` reads it (`voronoi.py:369-377`). -/
def VDataset.background (centre : List (V3 K) → V3 K) (m : VDataset K) : VBackground (V3 K) :=
  ⟨m.centers centre, m.points, m.labels⟩

/-- An item as `generate_mesh` reads it (`voronoi.py:381-409`); `contains m p` is `m.find_containing_cell(p) != -1`. -/
def VAdded.source (centre : List (V3 K) → V3 K) (contains : VDataset K → V3 K → Bool) (bg : VDataset K)
    (a : VAdded K) : VSource (V3 K) :=
  let inside := (a.mesh.centers centre).map (contains bg)
  ⟨a.mesh.centers centre, a.mesh.labels, inside,
    fun ids p => if inside.any id then contains (a.mesh.part ids) p
      else if a.mesh.kind = .poly then false else contains a.mesh p,
    a.group, a.priority⟩

/-- `VoronoiMesh2D(mesh, ...)`, `add(...)` for each item, `generate_mesh(...)`.  `outlines` is
`extract_boundary_polygons` with its rings decimated, without the axis. -/
def voronoiFrom (kit : VoronoiKit K) (o : VOptions K) (contains : VDataset K → V3 K → Bool)
    (outlines : VDataset K → Option (List (List (List (K × K))))) (mesh : VDataset K) (items : List (VAdded K))
    (fuse : List (V3 K → Bool)) : Py (VMesh K) :=
  let bg := mesh.project o.axis
  let sources := items.map fun a => ({ a with mesh := a.mesh.project o.axis } : VAdded K).source kit.centre contains bg
  voronoiMesh kit o (bg.background kit.centre) (outlines bg) sources fuse

/-- What is given to `add` (`voronoi.py:62-101`): a dataset, or coordinates; `array` says that they are a numpy array
of floats, contiguous in memory, and not a list or an array of another type. -/
inductive VoronoiArg (K : Type _)
  | dataset (m : VDataset K)
  | coords (array : Bool) (pts : PointArray K)

/-- A row with entry `axis` set to 0. -/
def zeroEntry (axis : Fin 3) (row : List K) : List K := row.set axis 0

/-- `mesh.points[:, axis] = 0.0` seen through the array of points; that of a single point has one row. -/
def zeroColumn (axis : Fin 3) : PointArray K → PointArray K
  | .d1 v => .d1 (zeroEntry axis v)
  | .d2 n rows => .d2 n (rows.map (zeroEntry axis))
  | .other n => .other n

/-- The points of `pv.PolyData(array)`. -/
def arrayPoints : PointArray K → List (V3 K)
  | .d1 v => [fun k => v.getD k 0]
  | .d2 _ rows => rows.map fun r k => r.getD k 0
  | .other _ => []

/-- `_check_point_array` returns the array it was given (`np.asanyarray` and no `np.insert`). -/
def passesThrough : PointArray K → Bool
  | .d1 v => decide (v.length = 3)
  | .d2 n _ => decide (n = 3)
  | .other _ => false

/-- `voronoi.py:87-99` `add`: the mesh of the new item, and the argument of the caller afterwards.  `pv.PolyData(array)`
does not copy an array of floats: if `_check_point_array` did not make a new one, the points of the mesh are the array
of the caller. -/
def addToVoronoi (axis : Fin 3) : VoronoiArg K → Py (VDataset K × VoronoiArg K)
  | .dataset m => .ok (m.project axis, .dataset m)
  | .coords array pts =>
    match checkPointArray axis pts with
    | .error e => .error e
    | .ok pts' =>
      let points := arrayPoints pts'
      let mesh : VDataset K := ⟨.poly, points, (List.range points.length).map fun i => [i], ⟨points.length, none, none⟩⟩
      .ok (mesh.project axis, .coords array (if array && passesThrough pts then zeroColumn axis pts else pts))

end

section polylines
variable {δ : Type _} [OfNat δ 0] [OfNat δ 32]

/-- An item of `add_polyline` (`voronoi.py:312-320`): the band, the numbers of its cells that are kept, group and
priority. -/
structure BandItem (δ : Type _) where
  band : SGrid ℝ δ
  cells : List Nat
  group : Option String
  priority : Int

/-- `voronoi.py:249-320`: the loop over the polylines.  The variable `padding` is set in the first pass
(`voronoi.py:255`) and keeps its value in the next ones. -/
noncomputable def bandLoop (area : Arr3 (V3 ℝ) → List ℝ) (axis : Fin 3) (width : ℝ) (cell : Bool) (start stop : Nat)
    (resolution : Resolution ℝ) (priority : Option Int) (group : Option String) :
    Option ℝ → List (List (V3 ℝ)) → Py (List (BandItem δ))
  | _, [] => .ok []
  | padding, line :: rest =>
    match addPolyline area axis (line.map (dropAxis axis)) width cell padding start stop resolution with
    | .error e => .error e
    | .ok (band, kept, constraint) =>
      match bandLoop area axis width cell start stop resolution priority group
          (if cell then some (padding.getD (1 / 2 * width)) else padding) rest with
      | .error e => .error e
      | .ok items => .ok (⟨band, kept, group, priority.getD 0⟩ :: ⟨band, constraint, none, 0⟩ :: items)

/-- `voronoi.py:183-322` `add_polyline` on a mesh of polylines: the items that are appended.  Simplified: without
polylines, `resolution` is not checked. -/
noncomputable def addPolylines (area : Arr3 (V3 ℝ) → List ℝ) (axis : Fin 3) (lines : List (List (V3 ℝ))) (width : ℝ)
    (cell : Bool) (padding : Option ℝ) (start stop : Nat) (resolution : Resolution ℝ) (priority : Option Int)
    (group : Option String) : Py (List (BandItem δ)) :=
  bandLoop area axis width cell start stop resolution priority group padding lines

end polylines

end Gridder
