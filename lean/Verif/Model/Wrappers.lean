import Verif.Model.Extrude
import Verif.Model.Structured

/-!
# `StructuredSurface` and `Volume`

Models `pvgridder/core/geometric_objects.py` 1183-1221 (`StructuredSurface`) and 1224-1263 (`Volume`).
-/

namespace Gridder

/-- `geometric_objects.py:1217-1218`: the lines used if none is given, whatever the plane. -/
def defaultLines : List (V3 ℝ) × List (V3 ℝ) := ([![0, 0, 0], ![1, 0, 0]], [![0, 1, 0], ![1, 1, 0]])

/-- `geometric_objects.py:1183-1221` `StructuredSurface`; `none` is `None`. -/
noncomputable def structuredSurface {δ : Type _} [OfNat δ 0] [OfNat δ 32] (area : Arr3 (V3 ℝ) → List ℝ)
    (lineA lineB : Option (LineArg ℝ δ)) (plane : String) (resolution : Resolution ℝ) (method : Option String) :
    Py (SGrid ℝ δ) :=
  generateSurface area (lineA.getD (.array defaultLines.1)) (lineB.getD (.array defaultLines.2)) plane resolution method

/-- `geometric_objects.py:1224-1263` `Volume` on structured grids. -/
noncomputable def volumeBetween {δ : Type _} [OfNat δ 0] [OfNat δ 32] [Inhabited δ] (volume : Arr3 (V3 ℝ) → List ℝ)
    (a b : SGrid ℝ δ) (resolution : Resolution ℝ) (method : Option String) : Py (SGrid ℝ δ) :=
  generateVolumeS volume a b resolution method

/-- A mesh given to or returned by `Volume`, after the casts of `_helpers.py:281-294`: `ImageData`, `RectilinearGrid`
and `StructuredGrid` are structured, `PolyData` and `UnstructuredGrid` are not.  Simplified: a returned
`UnstructuredGrid` is what its constructor is given. -/
inductive AnyMesh (U : Type _) (δ : Type _)
  | structured (g : SGrid ℝ δ)
  | unstructured (g : U)

/-- `geometric_objects.py:1224-1263` `Volume`, `_helpers.py:233-458`.  Two meshes of different kinds fail the test of
`_helpers.py:296-299`; the test of the numbers of points there is repeated, in `generateVolumeU`, or implied by that of
the dimensions. -/
noncomputable def volumeMesh {δ : Type _} [OfNat δ 0] [OfNat δ 32] [Inhabited δ] (volume : Arr3 (V3 ℝ) → List ℝ)
    (a b : AnyMesh (UGrid ℝ δ) δ) (resolution : Resolution ℝ) (method : Option String) :
    Py (AnyMesh (VolumeOut ℝ δ) δ) :=
  match a, b with
  | .structured a, .structured b =>
    match volumeBetween volume a b resolution method with
    | .error e => .error e
    | .ok m => .ok (.structured m)
  | .unstructured a, .unstructured b =>
    match generateVolumeU true a b resolution method with
    | .error e => .error e
    | .ok m => .ok (.unstructured m.1)
  | _, _ => .error .valueError

end Gridder
