import Verif.Model.Voronoi
import Verif.Model.Average
import Verif.Model.CellOps
import Verif.Model.Groups
import Verif.Model.Offset
import Mathlib.Algebra.Order.Group.Unbundled.Abs

/-!
# Generating a Voronoi mesh

Models `VoronoiMesh2D.__init__`, `add` and `generate_mesh` (`pvgridder/core/voronoi.py` 46-101, 324-507) from the
background mesh and the items to the returned mesh, on top of the parts in `Model/Voronoi.lean`.  What other libraries
do (Qhull, the search of close points, shapely, VTK) is an argument, the structure `VoronoiKit`.  `dropAxis` and
`insertAxis` (`Model/Offset.lean`) are also `np.delete(points, axis, axis=1)` (417) and `np.insert(points, axis, 0.0,
axis=1)` (496).  The meshes are those of `__init__` and `add`: their coordinates along the
discarded axis are 0.
-/

namespace Gridder

section sources
variable {P : Type _}

/-- What `generate_mesh` reads of an item (`voronoi.py:381-409`): the centres of its cells, its labels, which centres
are in the background mesh (`find_containing_cell(...) != -1`), whether a point is in one of the given cells (false
for polydata), and the arguments `group` and `priority` of `add`. -/
structure VSource (P : Type _) where
  centers : List P
  labels : LMesh
  inside : List Bool
  covers : List Nat → P → Bool
  group : GroupArg
  priority : Int

/-- The background mesh (`voronoi.py:56-60`, 369-377): the centres of its cells, its points, its labels. -/
structure VBackground (P : Type _) where
  centers : List P
  nodes : List P
  labels : LMesh

/-- `voronoi.py:386-391`: the cells of an item that are used. -/
def VSource.kept (s : VSource P) : List Nat :=
  if s.inside.any id then (List.range s.centers.length).filter fun i => s.inside.getD i false
  else List.range s.centers.length

/-- The labels of the cells `ids` of a mesh, after `extract_cells`, which passes the array and the table. -/
def subLabels (m : LMesh) (ids : List Nat) : LMesh :=
  ⟨ids.length, m.cellGroup.map fun data => ids.filterMap (data[·]?), m.table⟩

/-- `voronoi.py:383-395`: the item reduced to the cells that are used, with its group array. -/
def VSource.item (s : VSource P) (groups : List Int) : VItem P Int :=
  ⟨s.kept.filterMap (s.centers[·]?), List.replicate s.kept.length true, groups, fun _ p => s.covers s.kept p,
    s.priority⟩

/-- The loop over the items (`voronoi.py:381-415`), with the group table. -/
def sourceLoop (ignore : List String) (dflt : String) :
    List (VSource P) → List (VPoint P Int) × Dict String Int → Py (List (VPoint P Int) × Dict String Int)
  | [], st => .ok st
  | s :: rest, st =>
    match initGroupArray ignore dflt (subLabels s.labels s.kept) st.2 s.group none with
    | .error e => .error e
    | .ok (arr, groups) => sourceLoop ignore dflt rest (voronoiStep st.1 (s.item arr), groups)

/-- `sorted(self.items, key=lambda item: abs(item.priority))` (`voronoi.py:367`). -/
def sortSources (sources : List (VSource P)) : List (VSource P) :=
  sources.insertionSort fun a b => a.priority.natAbs ≤ b.priority.natAbs

/-- `voronoi.py:369-379`: points and group array of the background mesh; `cell` is `preference == "cell"`.
Simplified: other values than "cell" and "point" (`UnboundLocalError`) are not represented. -/
def backgroundPoints (ignore : List String) (dflt : String) (cell : Bool) (bg : VBackground P) :
    Py (List (VPoint P Int) × Dict String Int) :=
  if cell then
    match initGroupArray ignore dflt bg.labels [] .none none with
    | .error e => .error e
    | .ok (arr, groups) => .ok ((bg.centers.zip arr).map fun b => ⟨b.1, b.2, none, true⟩, groups)
  else
    let r := initGroupArraySize dflt bg.nodes.length [] none
    .ok ((bg.nodes.zip r.1).map fun b => ⟨b.1, b.2, none, true⟩, r.2)

/-- `voronoi.py:366-415`: the points of the diagram and the group table. -/
def generatorPoints (ignore : List String) (dflt : String) (cell : Bool) (bg : VBackground P)
    (sources : List (VSource P)) : Py (List (VPoint P Int) × Dict String Int) :=
  match backgroundPoints ignore dflt cell bg with
  | .error e => .error e
  | .ok st => sourceLoop ignore dflt (sortSources sources) st

end sources

/-- What other libraries do.
* `qhull`: `scipy.spatial.Voronoi`; `nrm`, `angle`: `np.linalg.norm` and `np.arctan2` about a centre;
* `pairs`: `KDTree(points).query_pairs(min_length)`, in the order of Python;
* `polyClean`: `PolyData.clean()` at the end of `average_points`: points, and the new number of each point;
* `valid`: `shapely.Polygon(...)` does not raise and is valid;
* `clip boundary polygon`: the coordinates of the rings of `boundary.intersection(polygon)`, each ring being closed;
* `centre`: centre of a cell; `dim`, `outline`: see `fuseCells`;
* `clean`: `UnstructuredGrid.clean`: points, and the new number of each point. -/
structure VoronoiKit (K : Type _) where
  qhull : List (K × K) → Qhull K
  nrm : K × K → K
  angle : K × K → K × K → K
  pairs : List (V3 K) → List (Nat × Nat)
  polyClean : List (V3 K) → List (List Nat) → List (V3 K) × (Nat → Nat)
  valid : List (K × K) → Bool
  clip : List (List (K × K)) → List (K × K) → List (List (K × K))
  centre : List (V3 K) → V3 K
  dim : List (List (V3 K)) → Int
  outline : List (List (V3 K)) → Option (List (List (V3 K)))
  clean : List (V3 K) → List (List Nat) → List (V3 K) × (Nat → Nat)

section generate
variable {K : Type _} [Field K] [LinearOrder K]

/-- `infinity if infinity else np.ptp(self.mesh.points).max() * 1.0e3` (`voronoi.py:541`); without axis, `np.ptp`
takes all coordinates together.  Simplified: 0 if there is no point, where numpy raises. -/
def voronoiRadius (infinity : Option K) (nodes : List (V3 K)) : K :=
  let xs := nodes.flatMap fun p => [p 0, p 1, p 2]
  let default := (xs.foldl max (xs.headD 0) - xs.foldl min (xs.headD 0)) * 1000
  match infinity with
  | none => default
  | some r => if r = 0 then default else r

/-- `voronoi.py:419-435`: vertices and regions, and the numbers of the points that still have a region (`none`: all of
them).  `average` is `min_length > 0.0`.  The third coordinate, which is 0, is dropped at once. -/
def tessellate (kit : VoronoiKit K) (radius : K) (average : Bool) (points : List (K × K)) :
    Py (List (K × K) × List (List Nat) × Option (List Nat)) :=
  let t := closeRegions kit.nrm kit.angle radius (kit.qhull points)
  if average then
    let pts := t.1.map (insertAxis 2)
    match averagePoints pts t.2 0 (kit.pairs pts) with
    | .error e => .error e
    | .ok (_, _, none) => .error .keyError
    | .ok (pts, faces, some ids) =>
      let c := kit.polyClean pts faces
      .ok (c.1.map (dropAxis 2), faces.map fun f => f.map c.2, some ids)
  else .ok (t.1, t.2, none)

/-- Body of the loop over the regions (`voronoi.py:466-484`): the vertices of the cell.  `get_coordinates` concatenates
all rings of the intersection, and only the last point is dropped. -/
def clipCell (kit : VoronoiKit K) (ccw : Bool) (boundary : List (List (K × K))) (vertices : List (K × K))
    (region : List Nat) : Py (List (K × K)) :=
  match gather vertices region with
  | .error e => .error e
  | .ok polygon =>
    if kit.valid polygon then .ok (orientCell ccw (kit.clip boundary polygon).flatten.dropLast)
    else .error .valueError

/-- `np.arange(len(points_)) + n_points` for each cell (`voronoi.py:473`). -/
def numberCells {α : Type _} : Nat → List (List α) → List (List Nat)
  | _, [] => []
  | n, c :: cs => (List.range c.length).map (· + n) :: numberCells (n + c.length) cs

/-- VTK's type of a face of `pv.PolyData` (`voronoi.py:488-489`). -/
def faceType (n : Nat) : Nat := if n = 3 then vtkTriangle else if n = 4 then vtkQuad else vtkPolygon

/-- A Voronoi mesh: points, types and nodes of the cells, the array "CellGroup", the arrays "X", "Y", "Z" (together),
and `user_dict["CellGroup"]`. -/
structure VMesh (K : Type _) where
  points : List (V3 K)
  types : List Nat
  cells : List (List Nat)
  groups : List Int
  sites : List (V3 K)
  table : Dict String Int

/-- `voronoi.py:438-452`: the first boundary polygon: its exterior ring and its holes.  `outlines` is the result of
`extract_boundary_polygons` with its rings decimated, in the plane. -/
def firstOutline (outlines : Option (List (List (List (K × K))))) : Py (List (List (K × K))) :=
  match outlines with
  | none => .error .valueError
  | some [] => .error .valueError
  | some (b :: _) => .ok b

/-- `voronoi.py:487` `_check_point_array(points)`: an empty list is an array of one dimension. -/
def cellPoints (axis : Fin 3) (points : List (K × K)) : Py (List (V3 K)) :=
  if points = [] then .error .valueError
  else .ok (points.map (insertAxis axis))

/-- `voronoi.py:454-499`: the polygonal mesh with its data.  An array of the wrong size raises. -/
def polygonMesh (kit : VoronoiKit K) (axis : Fin 3) (ccw : Bool) (boundary : List (List (K × K)))
    (vertices : List (K × K)) (regions : List (List Nat)) (data : List Int × List (V3 K)) (table : Dict String Int) :
    Py (VMesh K) :=
  match mapPy (clipCell kit ccw boundary vertices) regions with
  | .error e => .error e
  | .ok polys =>
    match cellPoints axis polys.flatten with
    | .error e => .error e
    | .ok points =>
      if data.1.length ≠ polys.length ∨ data.2.length ≠ polys.length then .error .valueError
      else
        .ok ⟨points, polys.map fun c => faceType c.length, numberCells 0 polys, data.1,
          data.2.map fun p => insertAxis axis (dropAxis axis p), table⟩

/-- The corners of the cells of a mesh. -/
def cornersOf (points : List (V3 K)) (cells : List (List Nat)) : List (List (V3 K)) :=
  cells.map fun c => c.filterMap (points[·]?)

/-- `voronoi.py:501-505`: fuse the cells whose centre satisfies a predicate.  Simplified: the predicates are given
point by point, and the arrays of the mesh are one array of rows. -/
def fuseMesh (kit : VoronoiKit K) (fuse : List (V3 K → Bool)) (m : VMesh K) : Py (VMesh K) :=
  if fuse = [] then .ok m
  else
    let corners := cornersOf m.points m.cells
    let centres := corners.map kit.centre
    let inds := fuse.map fun f => (List.range centres.length).filter fun i => (centres[i]?.map f).getD false
    let sub := fun (ind : List Nat) => ind.filterMap (corners[·]?)
    match fuseCells m.points m.cells m.types [("CellGroup", m.groups.zip m.sites)] (fun ind => kit.dim (sub ind))
        (fun ind => kit.outline (sub ind)) inds with
    | .error e => .error e
    | .ok (cells, types, data) =>
      let rows := (Dict.get? data "CellGroup").getD []
      let c := kit.clean m.points cells
      .ok ⟨c.1, types, cells.map fun cell => cell.map c.2, rows.map Prod.fst, rows.map Prod.snd, m.table⟩

/-- `_base.py:201-230` `_clean` on the mesh (`voronoi.py:507`). -/
def cleanVMesh (kit : VoronoiKit K) (m : VMesh K) : Py (VMesh K) :=
  match cleanGroups m.groups m.table with
  | .error e => .error e
  | .ok (groups, table) =>
    let c := kit.clean m.points m.cells
    .ok ⟨c.1, m.types, m.cells.map fun cell => cell.map c.2, groups, m.sites, table⟩

/-- Arguments of the constructor and of `generate_mesh` (`voronoi.py:46-60`, 324-331): `average` is `min_length > 0.0`,
`ccw` is `orientation == "CCW"` (false is "CW"; other values are not represented). -/
structure VOptions (K : Type _) where
  axis : Fin 3
  cell : Bool
  dflt : String
  ignore : List String
  infinity : Option K
  average : Bool
  ccw : Bool

/-- `voronoi.py:417-499`: from the points to the polygonal mesh. -/
def diagram (kit : VoronoiKit K) (o : VOptions K) (radius : K) (outlines : Option (List (List (List (K × K)))))
    (pts : List (VPoint (V3 K) Int)) (table : Dict String Int) : Py (VMesh K) :=
  match tessellate kit radius o.average ((pts.filter (·.active)).map fun v => dropAxis o.axis v.point) with
  | .error e => .error e
  | .ok (vertices, regions, ids) =>
    match firstOutline outlines with
    | .error e => .error e
    | .ok boundary => polygonMesh kit o.axis o.ccw boundary vertices regions (voronoiData pts ids) table

/-- `voronoi.py:324-507` `generate_mesh`. -/
def voronoiMesh (kit : VoronoiKit K) (o : VOptions K) (bg : VBackground (V3 K))
    (outlines : Option (List (List (List (K × K))))) (sources : List (VSource (V3 K))) (fuse : List (V3 K → Bool)) :
    Py (VMesh K) :=
  match generatorPoints o.ignore o.dflt o.cell bg sources with
  | .error e => .error e
  | .ok (pts, table) =>
    match diagram kit o (voronoiRadius o.infinity bg.nodes) outlines pts table with
    | .error e => .error e
    | .ok m =>
      match fuseMesh kit fuse m with
      | .error e => .error e
      | .ok m => cleanVMesh kit m

/-- `shapely.Polygon(edge.points).area` (`_misc.py:255`, 261): shapely ignores the third coordinate. -/
def shapelyArea (ring : List (V3 K)) : K :=
  |(List.zipWith (fun p q => p 0 * q 1 - q 0 * p 1) ring (ring.rotate 1)).sum| / 2

/-- `_misc.py:253-272`: the rings of `extract_boundary_polygons(mesh, with_holes=True)`, by their numbers; `contains` is
that of shapely. -/
def boundaryGroups (contains : List (V3 K) → List (V3 K) → Bool) (rings : List (List (V3 K))) : List (List Nat) :=
  ringGroups (fun i j => decide (shapelyArea (rings.getD j []) < shapelyArea (rings.getD i [])) &&
    contains (rings.getD i []) (rings.getD j [])) rings.length

end generate

end Gridder
