import Verif.Model.Shapes
import Verif.Model.Cast

/-!
# The sum of the two halves of SectorRectangle and RectangleSector

Models `pvgridder/core/geometric_objects.py` 846 and 1007: the two structured halves become unstructured grids and `+` of PyVista merges
them, points at the same place included.
-/

namespace Gridder

/-- The cells of an unstructured grid of quads with its points.  Simplified: without data. -/
structure QuadMesh (K : Type _) where
  points : List (V3 K)
  cells : List (List ℕ)

/-- What `+` of PyVista does with points outside this code: the points that are kept, and the number that each of the points gets. -/
abbrev Joining (K : Type _) := List (V3 K) → List (V3 K) × (ℕ → ℕ)

/-- `geometric_objects.py:846` and 1007 `mesh_y45.cast_to_unstructured_grid() + mesh_x90.cast_to_unstructured_grid()`: the points of both
meshes joined by VTK, the cells of both with the new numbers.  Simplified: the cells of the first mesh come first (PyVista may append the
meshes in another order), and `translate` (lines 847, 1008) is applied before, see `sectorRectangle`. -/
def sumHalves {K δ : Type _} (join : Joining K) (A B : SGrid K δ) : QuadMesh K :=
  let joined := join (A.nodes.ravelF ++ B.nodes.ravelF)
  ⟨joined.1, ((castCells A.nodes.d false fun _ => false).map fun c => c.2.map joined.2) ++
    (castCells B.nodes.d false fun _ => false).map fun c => c.2.map fun k => joined.2 (A.nodes.ravelF.length + k)⟩

section
variable (δ : Type _) [OfNat δ 0] [OfNat δ 32]

/-- `geometric_objects.py:994-1011` `SectorRectangle`, with the sum of the halves. -/
noncomputable def sectorRectangleMesh (join : Joining ℝ) (area : Arr3 (V3 ℝ) → List ℝ) (radius dx dy : ℝ)
    (rResolution thetaResolution : Resolution ℝ) (rMethod thetaMethod : Option String) (center : Option (List ℝ)) : Py (QuadMesh ℝ) := do
  let (A, B) : SGrid ℝ δ × SGrid ℝ δ ← sectorRectangle area radius dx dy rResolution thetaResolution rMethod thetaMethod center
  .ok (sumHalves join A B)

/-- `geometric_objects.py:837-850` `RectangleSector`, with the sum of the halves. -/
noncomputable def rectangleSectorMesh (join : Joining ℝ) (area : Arr3 (V3 ℝ) → List ℝ) (dx dy radius : ℝ)
    (xResolution yResolution rResolution : Resolution ℝ) (xMethod yMethod rMethod : Option String) (center : Option (List ℝ)) :
    Py (QuadMesh ℝ) := do
  let (A, B) : SGrid ℝ δ × SGrid ℝ δ ←
    rectangleSector area dx dy radius xResolution yResolution rResolution xMethod yMethod rMethod center
  .ok (sumHalves join A B)

end

end Gridder
