import Verif.Model.GenerateU
import Verif.Model.Shapes

/-!
# 2D stacks with transitions

Models `MeshStack2D.generate_mesh` and `_transition` (`pvgridder/core/stack.py` 76-104) when there are transition items:
their submesh is a triangulation, so that `merge` (`pvgridder/utils/_misc.py` 985-988) reads the structured grids of the
other items as unstructured ones.
-/

namespace Gridder
open Spec

section
variable {K ρ : Type _} [Field K] [LinearOrder K]

/-- The nodes of a cell of a flat structured grid, in the order of VTK. -/
def quadIds (d c : Ix) : List ℕ :=
  let u : Fin 3 := if d 0 = 1 then 1 else 0
  let v : Fin 3 := if d 2 = 1 then 1 else 2
  let at' : ℕ → ℕ → ℕ := fun i j => flatF d (Function.update (Function.update c u (c u + i)) v (c v + j))
  [at' 0 0, at' 1 0, at' 1 1, at' 0 1]

/-- The ghost flag of a cell (`_helpers.py:222-228`), 0 if the mesh has no ghost array. -/
def ghostFlag (cd : Dict String (DArr ℤ)) (c : ℕ) : ℤ :=
  match Dict.get? cd "vtkGhostType" with
  | none => 0
  | some g => g.vals.getD c 0

/-- A flat structured grid as an unstructured one, which is how `pv.merge` (`utils/_misc.py:986`) reads it: points and
cells in the order of VTK.  `quad f` is the type that VTK reports for a quad with the ghost flag `f`: 9 for the flag 0,
hidden quads may be reported as empty cells. -/
def castGrid (quad : ℤ → ℤ) (g : SGrid K ℤ) : UMesh K :=
  ⟨g.nodes.ravelF,
    (⟨cellShape g.nodes.d, fun c => (quad (ghostFlag g.cellData (flatF (cellShape g.nodes.d) c)),
      .nodes (quadIds g.nodes.d c))⟩ : Arr3 (ℤ × Cell)).ravelF, g.cellData⟩

/-- Lines; `sub` makes the surface between two lines, `tri` is `Polygon(points, celltype="triangle")` with its outline
as argument (`stack.py:100-101`). -/
def lineKitU (quad : ℤ → ℤ) (sub : LineArg K ℤ → LineArg K ℤ → ρ → Py (SGrid K ℤ)) (tri : List (V3 K) → Py (UMesh K)) :
    UKit K LineTopo ρ where
  labels s := ⟨s.points.length - 1, groupCodes s.topo.cellData, s.topo.table⟩
  withGroup s arr := ⟨s.points, { s.topo with cellData := Dict.set s.topo.cellData "CellGroup" ⟨false, arr⟩ }⟩
  extrude a b r :=
    match sub (lineArg a) (lineArg b) r with
    | .error e => .error e
    | .ok g => .ok (castGrid quad g)
  transition a b := tri (a.points ++ b.points.reverse)

end

section
variable {K ω : Type _} [Field K] [LinearOrder K]

/-- `stack.py:121-129` `set_transition` with an integer: the base line is resampled by `RegularLine`, whose data are
cleared (`geometric_objects.py:880-881`); `nrm` is the Euclidean norm.  A negative number makes `np.linspace` or
`pv.MultipleLines` (for -1, no point is left) raise `ValueError`. -/
def Stack.setTransitionInt (nrm : V3 K → K) (s : Stack K LineTopo ω) (n : ℤ) : Py (Stack K LineTopo ω) :=
  if n < 0 then .error .valueError
  else
    match regularLine nrm s.mesh.points (some n.toNat) with
    | .error e => .error e
    | .ok pts => .ok (s.setTransition ⟨pts, List.range pts.length, [], [], none⟩)

end

/-- `stack.py:76-93` `MeshStack2D.generate_mesh` with at least one transition item. -/
noncomputable def stack2DT (quad : ℤ → ℤ) (area : Arr3 (V3 ℝ) → List ℝ) (tri : List (V3 ℝ) → Py (UMesh ℝ)) (vtk : VtkOracle ℝ)
    (ignore : List String) (dflt : String) (s : Stack ℝ LineTopo (Opts (Resolution ℝ × Option String))) :
    Py ((UMesh ℝ × Dict String Int) × Stack ℝ LineTopo (Opts (Resolution ℝ × Option String))) :=
  s.generateU (lineKitU quad (fun a b r => generateSurface area a b (stackPlane s.axis) r.1 r.2) tri) vtk ignore dflt

end Gridder
