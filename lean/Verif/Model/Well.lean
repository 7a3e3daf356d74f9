import Verif.Model.Shapes
import Verif.Model.Groups

/-!
# The well of the examples

Models `pvgridder/examples/examples.py` 131-183 (`load_well_2d` with `voronoi=False`): the parts of the first quarter,
made one by one by the geometric objects, and the two merges.
-/

namespace Gridder

/-- A mesh given to `MeshMerge.add` with its `group`: its points and, cell by cell, the positions of the corners. -/
structure WellPart where
  points : List (V3 ℝ)
  cells : List (List (V3 ℝ))
  group : String

/-- `cast_to_unstructured_grid` (`merge.py:58`) of a structured grid in the XY plane: its quadrilaterals, the first axis
running fastest, each with its corners in the order of VTK_QUAD. -/
def gridQuads {δ : Type _} (M : SGrid ℝ δ) : List (List (V3 ℝ)) :=
  (List.range (M.nodes.d 1 - 1)).flatMap fun (j : ℕ) => (List.range (M.nodes.d 0 - 1)).map fun (i : ℕ) =>
    [M.nodes.get ![i, j, 0], M.nodes.get ![i + 1, j, 0], M.nodes.get ![i + 1, j + 1, 0], M.nodes.get ![i, j + 1, 0]]

/-- A structured grid as a part. -/
def gridPart {δ : Type _} (M : SGrid ℝ δ) (group : String) : WellPart :=
  ⟨M.nodes.ravelF, gridQuads M, group⟩

/-- A Sector as a part. -/
def sectorPart (S : TriMesh ℝ) (group : String) : WellPart :=
  ⟨S.points, S.cells.map fun c => c.map fun k => S.points.getD k 0, group⟩

/-- A SectorRectangle as a part.  Simplified: `+` of pyvista merges the coincident points of the two halves
(`geometric_objects.py:1007`); here they are listed twice. -/
def halvesPart {δ : Type _} (A B : SGrid ℝ δ) (group : String) : WellPart :=
  ⟨A.nodes.ravelF ++ B.nodes.ravelF, gridQuads A ++ gridQuads B, group⟩

/-- The numbers in `examples.py:150-168`. -/
structure WellNumbers where
  /-- Radius of the Sector and its group. -/
  core : ℝ
  coreGroup : String
  /-- Inner and outer radius, radial resolution and group of each AnnularSector. -/
  rings : List (ℝ × ℝ × ℤ × String)
  /-- Angular resolution of the Sector and the annular sectors. -/
  angular : ℤ
  /-- Radius, side, radial resolution, angular resolution per half and radial method of the SectorRectangle. -/
  radius : ℝ
  side : ℝ
  radial : ℤ
  half : ℤ
  method : Option String
  /-- Width of the outer rectangles and their resolutions along and across the side of the SectorRectangle. -/
  width : ℝ
  along : ℤ
  across : ℤ
  outerGroup : String

section
variable {δ : Type _} [OfNat δ 0] [OfNat δ 32]

/-- `examples.py:157-162`: the annular sectors. -/
noncomputable def wellRings (δ : Type _) [OfNat δ 0] [OfNat δ 32] (area : Arr3 (V3 ℝ) → List ℝ) (angular : ℤ) :
    List (ℝ × ℝ × ℤ × String) → Py (List WellPart)
  | [] => .ok []
  | (ri, ro, nr, group) :: rest => do
    let M : SGrid ℝ δ ← annularSector area ri ro 0 90 (.int nr) (.int angular) none none none
    let more ← wellRings δ area angular rest
    .ok (gridPart M group :: more)

/-- `examples.py:154-167`: the parts of the first quarter in the order of the calls of `add`. -/
noncomputable def wellQuarter (δ : Type _) [OfNat δ 0] [OfNat δ 32] (area : Arr3 (V3 ℝ) → List ℝ) (w : WellNumbers) :
    Py (List WellPart) := do
  let S ← sector w.core 0 90 (.int w.angular) none none
  let rings ← wellRings δ area w.angular w.rings
  let (A, B) : SGrid ℝ δ × SGrid ℝ δ ←
    sectorRectangle area w.radius w.side w.side (.int w.radial) (.int w.half) w.method none none
  let right : SGrid ℝ δ ←
    rectangle area w.width w.side (.int w.across) (.int w.along) none none (some [w.side, 0, 0])
  let corner : SGrid ℝ δ ←
    rectangle area w.width w.width (.int w.across) (.int w.across) none none (some [w.side, w.side, 0])
  let top : SGrid ℝ δ ←
    rectangle area w.side w.width (.int w.along) (.int w.across) none none (some [0, w.side, 0])
  .ok (sectorPart S w.coreGroup :: rings ++
    [halvesPart A B w.outerGroup, gridPart right w.outerGroup, gridPart corner w.outerGroup,
      gridPart top w.outerGroup])

end

/-- `mesh.rotate_z(angle)` (pyvista) on a point, the angle in degrees. -/
noncomputable def rotateZ (angle : ℝ) (p : V3 ℝ) : V3 ℝ :=
  ![Real.cos (deg2rad angle) * p 0 - Real.sin (deg2rad angle) * p 1,
    Real.sin (deg2rad angle) * p 0 + Real.cos (deg2rad angle) * p 1, p 2]

/-- `examples.py:154-178`: the merge of the parts, then of the result and its rotations.  `append` stands for
`pv.merge` as in `mergeGenerate`; cells are given by the positions of their corners, so the merging of points
(`tolerance`) does not show here. -/
noncomputable def wellMerged
    (append : List (List (V3 ℝ) × Int) → List (List (V3 ℝ) × Int) → List (List (V3 ℝ) × Int))
    (parts : List WellPart) : Py (List (List (V3 ℝ) × Int) × Dict String Int) :=
  match mergeGenerate append [] "default" (parts.map fun p => ⟨p.cells, none, none, some p.group⟩) with
  | .error e => .error e
  | .ok ((quarter, table), _) =>
    let rotated (angle : ℝ) : MergeItem (List (V3 ℝ)) :=
      ⟨quarter.map fun c => c.1.map (rotateZ angle), some (quarter.map Prod.snd), some table, none⟩
    let first : MergeItem (List (V3 ℝ)) := ⟨quarter.map Prod.fst, some (quarter.map Prod.snd), some table, none⟩
    (mergeGenerate append [] "default" [first, rotated 90, rotated 180, rotated 270]).map Prod.fst

/-- `examples.py:150-168`: the numbers of `load_well_2d`. -/
noncomputable def wellNumbers : WellNumbers :=
  let inner : ℝ := 0.34
  let outer : ℝ := 0.445
  let thickness := outer - inner
  { core := inner - thickness
    coreGroup := "Core"
    rings := [(inner - thickness, inner, 1, "Core"), (inner, outer, 1, "Casing"),
      (outer, outer + thickness, 1, "Cement"), (outer + thickness, 0.8, 2, "Cement"), (0.8, 1.0, 1, "Cement"),
      (1.0, 1.2, 1, "Matrix")]
    angular := 8
    radius := 1.2
    side := 5
    radial := 8
    half := 4
    method := some "log"
    width := 5
    along := 4
    across := 4
    outerGroup := "Matrix" }

/-- `examples.py:131-183` `load_well_2d(voronoi=False)`: the cells with their group numbers, and
`user_dict["CellGroup"]`. -/
noncomputable def loadWell2d (δ : Type _) [OfNat δ 0] [OfNat δ 32] (area : Arr3 (V3 ℝ) → List ℝ)
    (append : List (List (V3 ℝ) × Int) → List (List (V3 ℝ) × Int) → List (List (V3 ℝ) × Int)) :
    Py (List (List (V3 ℝ) × Int) × Dict String Int) :=
  match wellQuarter δ area wellNumbers with
  | .error e => .error e
  | .ok parts => wellMerged append parts

end Gridder
