import Verif.Model.Polygon
import Verif.Model.Extrude
import Verif.Model.Generate

/-!
# The prisms, the anticlines and the terrain of the examples

Models `pvgridder/examples/examples.py` 9-128 (`load_anticline_2d`, `load_anticline_3d`, `load_concave_polyhedron`,
`load_half_stadium`, `load_topographic_terrain`).
-/

namespace Gridder

/-- `examples.py:66-73`: the outline of the L-shaped polyhedron. -/
def concaveOutline : List (V3 ℝ) :=
  [![0, 0, 0], ![5, 0, 0], ![5, 1, 0], ![1, 1, 0], ![1, 7, 0], ![0, 7, 0]]

/-- `examples.py:93-97`: the outline of the half stadium, a half circle with one point below each of its ends.
`np.deg2rad` multiplies by π / 180.  A negative resolution, for which `np.linspace` raises, is not modelled. -/
noncomputable def stadiumOutline (resolution : Nat) : List (V3 ℝ) :=
  let theta := (linspace 0 180 resolution).map fun t => t * (Real.pi / 180)
  let points : List (V3 ℝ) := theta.map fun t => ![Real.cos t, Real.sin t, 0]
  (points.headD 0 + ![0, -1, 0]) :: points ++ [points.getLastD 0 + ![0, -1, 0]]

/-- `examples.py:74-75` and `98-99`: the polygon through the points, and the volume between it and its translate by
(0, 0, 1).  The grids have no data arrays.  The second surface is made first: `Volume` writes in the connectivity of the
first one only after `translate` has copied it. -/
noncomputable def polygonPrism {δ : Type} [OfNat δ 0] [OfNat δ 32] (g : Gmsh ℝ) (nrm : V3 ℝ → ℝ)
    (points : List (V3 ℝ)) : Gm ℝ (VolumeOut ℝ δ) :=
  Gm.bind (polygon g nrm (.three points) [] none none 6 none "gmsh") fun (poly : CellMesh ℝ) =>
    let a : UGrid ℝ δ := ⟨poly.points, poly.cells, [], []⟩
    let b : UGrid ℝ δ := ⟨poly.points.map (· + ![0, 0, 1]), poly.cells, [], []⟩
    Gm.lift ((generateVolumeU true a b .none none).map Prod.fst)

/-- `examples.py:54-78` `load_concave_polyhedron`. -/
noncomputable def loadConcavePolyhedron {δ : Type} [OfNat δ 0] [OfNat δ 32] (g : Gmsh ℝ) (nrm : V3 ℝ → ℝ) :
    Gm ℝ (VolumeOut ℝ δ) :=
  polygonPrism g nrm concaveOutline

/-- `examples.py:81-102` `load_half_stadium`. -/
noncomputable def loadHalfStadium {δ : Type} [OfNat δ 0] [OfNat δ 32] (g : Gmsh ℝ) (nrm : V3 ℝ → ℝ)
    (resolution : Nat) : Gm ℝ (VolumeOut ℝ δ) :=
  polygonPrism g nrm (stadiumOutline resolution)

/-- `examples.py:22`: `pv.Line([-3.14, 0.0, 0.0], [3.14, 0.0, 0.0], resolution=41)`, a polyline of 42 points, as
`split_lines` returns it (`stack.py:73`).  The arrays VTK and pyvista attach to it are parameters. -/
noncomputable def anticlineLine (pd cd : Dict String (DArr ℤ)) : Surf ℝ LineTopo :=
  ⟨(List.range 42).map fun (i : ℕ) => ![-3.14 + i / 41 * 6.28, 0, 0], ⟨List.range 42, pd, cd, none⟩⟩

/-- `examples.py:23-28`: the calls of `add`. -/
noncomputable def anticlineCalls : List (Call ℝ LineTopo (Opts (Resolution ℝ × Option String))) :=
  [.add (.scalar 0) none ⟨(.none, none), .none⟩ 0 0,
    .add (.callable fun pts => .ok (.inr (pts.map fun p => Real.cos (p 0) + 1))) none
      ⟨(.int 4, none), .str "Layer 1"⟩ 0 0,
    .add (.scalar 0.5) none ⟨(.int 2, none), .str "Layer 2"⟩ 0 0,
    .add (.scalar 0.5) none ⟨(.int 2, none), .str "Layer 3"⟩ 0 0,
    .add (.scalar 0.5) none ⟨(.int 2, none), .str "Layer 4"⟩ 0 0,
    .add (.callable fun pts => .ok (.inr (pts.map fun _ => 3.4))) none ⟨(.int 4, none), .str "Layer 5"⟩ 0 0]

/-- `examples.py:9-33` `load_anticline_2d`, with the mesh and its `user_dict["CellGroup"]`. -/
noncomputable def loadAnticline2d (area : Arr3 (V3 ℝ) → List ℝ) (o : InterpOracle ℝ) (pd cd : Dict String (DArr ℤ)) :
    Py (SGrid ℝ ℤ × Dict String Int) :=
  match stack2DNew (.poly [anticlineLine pd cd]) 2 true with
  | .error e => .error e
  | .ok stack =>
    match stack.run o anticlineCalls with
    | .error e => .error e
    | .ok stack => (stack2D area [] "default" stack).map Prod.fst

/-- A generated structured grid as the base mesh of another object: its points, the rest, its `user_dict`. -/
def gridSurf (m : SGrid ℝ ℤ × Dict String Int) : Surf ℝ GridTopo :=
  ⟨m.1.nodes.ravelF, ⟨m.1.nodes.d, m.1.pointData, m.1.cellData, some m.2⟩⟩

/-- `examples.py:36-51` `load_anticline_3d`. -/
noncomputable def loadAnticline3d (area volume : Arr3 (V3 ℝ) → List ℝ) (o : InterpOracle ℝ)
    (rotate : V3 ℝ → ℝ → V3 ℝ → V3 ℝ → V3 ℝ) (pd cd : Dict String (DArr ℤ)) : Py (SGrid ℝ ℤ × Dict String Int) :=
  match loadAnticline2d area o pd cd with
  | .error e => .error e
  | .ok m =>
    match extrudeNew (gridSurf m) none none with
    | .error e => .error e
    | .ok e =>
      match e.run rotate [⟨1, [0, 6.28, 0], none, none, ⟨(.int 10, none), .none⟩⟩] with
      | .error e => .error e
      | .ok e => extrudeS volume [] "default" e

/-- `examples.py:123` `terrain.warp_by_scalar("scalar1of1")`: every point raised by its scalar.  VTK moves along the point
normals if the mesh has some, along (0, 0, 1) otherwise; the terrain has none. -/
def warpByScalar (points : List (V3 ℝ)) (scalars : List ℝ) : List (V3 ℝ) :=
  List.zipWith (fun p v => p + ![0, 0, v]) points scalars

/-- `examples.py:122-123`: the calls of `add`. -/
def terrainCalls (terrain : Surf ℝ GridTopo) (scalars : List ℝ) :
    List (Call ℝ GridTopo (Opts (Resolution ℝ × Option String))) :=
  [.add (.scalar 0) none ⟨(.none, none), .none⟩ 0 0,
    .add (.dataset (warpByScalar terrain.points scalars)) none ⟨(.int 10, some "log_r"), .none⟩ 0 0]

/-- `examples.py:105-128` `load_topographic_terrain`, with the mesh and its `user_dict["CellGroup"]`.  The structured grid of
line 119, made from a downloaded image, and its array `scalar1of1` are parameters. -/
noncomputable def loadTopographicTerrain (volume : Arr3 (V3 ℝ) → List ℝ) (o : InterpOracle ℝ) (terrain : Surf ℝ GridTopo)
    (scalars : List ℝ) : Py (SGrid ℝ ℤ × Dict String Int) :=
  match stack3DNew terrain 2 true with
  | .error e => .error e
  | .ok stack =>
    match stack.run o (terrainCalls terrain scalars) with
    | .error e => .error e
    | .ok stack => (stack3D volume [] "default" stack).map Prod.fst

end Gridder
