import Verif.Model.Resolution
import Mathlib.Data.Fin.VecNotation
import Mathlib.Algebra.Order.Field.Basic

/-!
# Structured grids

Models `pvgridder/core/_helpers.py` 111-230 (`generate_surface_from_two_lines`), the structured
branch of 233-458 (`generate_volume_from_two_surfaces`), 512-547 (`repeat_structured_data`), and the
structured branch of `pvgridder/utils/_misc.py` 891-988 (`merge`).
-/

namespace Gridder

/-- A point or vector with three components. -/
abbrev V3 (K : Type _) := Fin 3 → K

/-- A three-dimensional index or shape. -/
abbrev Ix := Fin 3 → Nat

/-- A three-dimensional numpy array: a shape and the entry at each index.  Entries at indices
outside the shape are never read. -/
structure Arr3 (α : Type _) where
  d : Ix
  get : Ix → α

/-- numpy / VTK Fortran order: position of index `i` in the flattened array. -/
def flatF (d i : Ix) : Nat := i 0 + d 0 * (i 1 + d 1 * i 2)

/-- numpy / VTK Fortran order: index at position `c`. -/
def unflatF (d : Ix) (c : Nat) : Ix := ![c % d 0, c / d 0 % d 1, c / (d 0 * d 1)]

/-- Number of entries. -/
def sizeOfShape (d : Ix) : Nat := d 0 * d 1 * d 2

/-- `arr.ravel(order="F")`; also the order of points and cells of a `vtkStructuredGrid`. -/
def Arr3.ravelF {α : Type _} (a : Arr3 α) : List α :=
  (List.range (sizeOfShape a.d)).map fun c => a.get (unflatF a.d c)

/-- `v.reshape(shape, order="F")` of a 1D array. -/
def reshapeF {α : Type _} [Inhabited α] (d : Ix) (v : List α) : Py (Arr3 α) :=
  if v.length = sizeOfShape d then .ok ⟨d, fun i => v.getD (flatF d i) default⟩
  else .error .valueError

/-- `np.repeat(arr, n, axis)`. -/
def Arr3.repeatAxis {α : Type _} (a : Arr3 α) (n : Nat) (axis : Fin 3) : Arr3 α :=
  ⟨Function.update a.d axis (a.d axis * n), fun i => a.get (Function.update i axis (i axis / n))⟩

/-- `arr[1:]` along an axis. -/
def Arr3.tailAxis {α : Type _} (a : Arr3 α) (axis : Fin 3) : Arr3 α :=
  ⟨Function.update a.d axis (a.d axis - 1), fun i => a.get (Function.update i axis (i axis + 1))⟩

/-- `np.concatenate((a, b), axis)`; shapes must agree on the other axes. -/
def Arr3.concat {α : Type _} (axis : Fin 3) (a b : Arr3 α) : Py (Arr3 α) :=
  if ∀ ax, ax ≠ axis → a.d ax = b.d ax then
    .ok ⟨Function.update a.d axis (a.d axis + b.d axis), fun i =>
      if i axis < a.d axis then a.get i
      else b.get (Function.update i axis (i axis - a.d axis))⟩
  else .error .valueError

/-- A data array of a mesh: one row per point or cell; `vector` says whether rows have several
components (`ndim == 2`). -/
structure DArr (δ : Type _) where
  vector : Bool
  vals : List δ
  deriving DecidableEq, Repr

/-- A structured grid: node coordinates, point data and cell data (`pv.StructuredGrid`). -/
structure SGrid (K δ : Type _) where
  nodes : Arr3 (V3 K)
  pointData : Dict String (DArr δ)
  cellData : Dict String (DArr δ)

/-- Shape of the array of cells: `max(1, n - 1)` on each axis (VTK; also `_helpers.py:351`,
`_misc.py:963-964`). -/
def cellShape (d : Ix) : Ix := fun ax => max 1 (d ax - 1)

/-- `mesh.cell_data[k] = v` / `mesh.point_data[k] = v` of pyvista: the array must have one row per
cell (point). -/
def setArray {δ : Type _} (n : Nat) (d : Dict String (DArr δ)) (k : String) (v : DArr δ) :
    Py (Dict String (DArr δ)) :=
  if v.vals.length = n then .ok (Dict.set d k v) else .error .valueError

/-- A loop `for k, v in src.items(): mesh.data[k] = f(v)`. -/
def copyArrays {δ : Type _} (n : Nat) (f : DArr δ → Py (DArr δ)) :
    Dict String (DArr δ) → Dict String (DArr δ) → Py (Dict String (DArr δ))
  | [], acc => .ok acc
  | (k, v) :: rest, acc =>
    match f v with
    | .error e => .error e
    | .ok w =>
      match setArray n acc k w with
      | .error e => .error e
      | .ok acc => copyArrays n f rest acc

/-- `np.tile(v, reps[: v.ndim])` with `reps = (n, 1)`: the rows `n` times over. -/
def tileRows {δ : Type _} (n : Nat) (v : DArr δ) : DArr δ :=
  ⟨v.vector, (List.replicate n v.vals).flatten⟩

/-- `_helpers.py:221-228` and 450-456: the ghost array, zeros if missing, set to 32 (hidden) where
`inactive`. -/
def flagHidden {δ : Type _} [OfNat δ 0] [OfNat δ 32] (n : Nat) (inactive : List Bool)
    (cd : Dict String (DArr δ)) : Dict String (DArr δ) :=
  let ghost := match Dict.get? cd "vtkGhostType" with
    | some g => g
    | none => ⟨false, List.replicate n 0⟩
  Dict.set cd "vtkGhostType"
    ⟨ghost.vector, List.zipWith (fun g h => if h then 32 else g) ghost.vals inactive⟩

section
variable {K : Type _} [Field K]

/-- `a + t * (b - a)` on points. -/
def lerp (t : K) (a b : V3 K) : V3 K := fun ax => a ax + t * (b ax - a ax)

/-- A line given to `generate_surface_from_two_lines`: coordinates, or a `pv.PolyData`, of which the
code uses the points, the node ids of its first continuous polyline (`line.strip(join=True)`; for a
mesh without lines the ring of its first polygon, closed), and its data. -/
inductive LineArg (K δ : Type _)
  | array (pts : List (V3 K))
  | poly (pts : List (V3 K)) (ids : List Nat)
      (pointData cellData : Dict String (DArr δ))

/-- `_helpers.py:145-162` `get_points`.  Node ids come from VTK and are in range. -/
def LineArg.points {δ : Type _} : LineArg K δ → List (V3 K)
  | .array pts => pts
  | .poly pts ids _ _ => ids.map fun i => pts.getD i 0

/-- The six plane options of `_helpers.py:178-209`. -/
inductive Plane | xy | yx | xz | zx | yz | zy
  deriving DecidableEq, Repr

/-- `_helpers.py:178-209`: `if plane == ...` on the string. -/
def parsePlane (s : String) : Py Plane :=
  if s = "xy" then .ok .xy else if s = "yx" then .ok .yx else if s = "xz" then .ok .xz
  else if s = "zx" then .ok .zx else if s = "yz" then .ok .yz else if s = "zy" then .ok .zy
  else .error .valueError

/-- `_helpers.py:173-209`: the node array. Before the plane test `X[p][s]` is node `p` of the line at
subdivision `s`; `.T` swaps the two indices and `expand_dims(_, ax)` inserts an axis of length 1. -/
def surfaceNodes (plane : Plane) (perc : List K) (a b : List (V3 K)) : Arr3 (V3 K) :=
  let np := a.length
  let ns := perc.length
  let P : Nat → Nat → V3 K := fun p s => lerp (perc.getD s 0) (a.getD p 0) (b.getD p 0)
  match plane with
  | .xy => ⟨![np, ns, 1], fun i => P (i 0) (i 1)⟩
  | .yx => ⟨![ns, np, 1], fun i => P (i 1) (i 0)⟩
  | .xz => ⟨![np, 1, ns], fun i => P (i 0) (i 2)⟩
  | .zx => ⟨![ns, 1, np], fun i => P (i 2) (i 0)⟩
  | .yz => ⟨![1, np, ns], fun i => P (i 1) (i 2)⟩
  | .zy => ⟨![1, ns, np], fun i => P (i 2) (i 1)⟩

/-- `_helpers.py:111-230` `generate_surface_from_two_lines` once the positions are known (`perc`).
`area` stands for VTK's cell areas.  Simplified: coordinates are rows of three numbers, so the
`X, Y, Z = ...` unpacking cannot fail. -/
def generateSurfaceCore {δ : Type _} [OfNat δ 0] [OfNat δ 32] [DecidableEq K]
    (area : Arr3 (V3 K) → List K) (lineA lineB : LineArg K δ) (plane : String) (perc : List K) :
    Py (SGrid K δ) :=
  if lineA.points.length ≠ lineB.points.length then .error .valueError
  else
    match parsePlane plane with
    | .error e => .error e
    | .ok plane =>
      let nodes := surfaceNodes plane perc lineA.points lineB.points
      let nPoints := sizeOfShape nodes.d
      let nCells := sizeOfShape (cellShape nodes.d)
      let inactive := (area nodes).map fun x => decide (x = 0)
      match lineA with
      | .array _ => .ok ⟨nodes, [], flagHidden nCells inactive []⟩
      | .poly _ _ pd cd =>
        match copyArrays nPoints (fun v => .ok (tileRows perc.length v)) pd [] with
        | .error e => .error e
        | .ok pd =>
          match copyArrays nCells (fun v => .ok (tileRows (perc.length - 1) v)) cd [] with
          | .error e => .error e
          | .ok cd => .ok ⟨nodes, pd, flagHidden nCells inactive cd⟩

/-- `_helpers.py:512-547` `repeat_structured_data`, up to `squeeze`. -/
def repeatStructured {δ : Type _} [Inhabited δ] (shape : Ix) (v : DArr δ) (n : Nat) (axis : Fin 3) :
    Py (DArr δ) :=
  match reshapeF shape v.vals with
  | .error e => .error e
  | .ok arr =>
    let vals := (arr.repeatAxis n axis).ravelF
    -- `.squeeze()` turns the single row of a vector array into a 1D array with one entry per
    -- component, which pyvista then refuses
    if vals.length = 1 ∧ v.vector = true then .error .valueError
    else .ok ⟨v.vector, vals⟩

/-- `_helpers.py:315-327`: the axis along which the surface is flat. -/
def flatAxis (d : Ix) : Fin 3 := if d 0 = 1 then 0 else if d 1 = 1 then 1 else 2

/-- `_helpers.py:329-340`: the node array: nodes of `a` and `b` without the flat axis, expanded
again, interpolated along it. -/
def volumeNodes (perc : List K) (a b : Arr3 (V3 K)) : Arr3 (V3 K) :=
  let axis := flatAxis a.d
  ⟨Function.update a.d axis perc.length, fun i =>
    lerp (perc.getD (i axis) 0) (a.get (Function.update i axis 0)) (b.get (Function.update i axis 0))⟩

/-- `_properties.py:255-264` `get_dimension` of a structured grid. -/
def dimOfShape (d : Ix) : Nat :=
  3 - ((if d 0 = 1 then 1 else 0) + (if d 1 = 1 then 1 else 0) + (if d 2 = 1 then 1 else 0))

/-- `_helpers.py:233-458`, structured branch of `generate_volume_from_two_surfaces`, once the
positions are known.  `volume` stands for VTK's cell volumes. -/
def generateVolumeStructured {δ : Type _} [OfNat δ 0] [OfNat δ 32] [Inhabited δ] [DecidableEq K]
    (volume : Arr3 (V3 K) → List K) (a b : SGrid K δ) (perc : List K) : Py (SGrid K δ) :=
  if a.nodes.d ≠ b.nodes.d then .error .valueError
  else if dimOfShape a.nodes.d ≠ 2 then .error .valueError
  else
    let axis := flatAxis a.nodes.d
    let nodes := volumeNodes perc a.nodes b.nodes
    let nCells := sizeOfShape (cellShape nodes.d)
    let inactive := (volume nodes).map fun x => decide (x = 0)
    match copyArrays (sizeOfShape nodes.d)
        (fun v => repeatStructured a.nodes.d v perc.length axis) a.pointData [] with
    | .error e => .error e
    | .ok pd =>
      match copyArrays nCells
          (fun v => repeatStructured (cellShape a.nodes.d) v (perc.length - 1) axis)
          a.cellData [] with
      | .error e => .error e
      | .ok cd => .ok ⟨nodes, pd, flagHidden nCells inactive cd⟩

end

/-- `_helpers.py:111-230` `generate_surface_from_two_lines`. -/
noncomputable def generateSurface {δ : Type _} [OfNat δ 0] [OfNat δ 32]
    (area : Arr3 (V3 ℝ) → List ℝ) (lineA lineB : LineArg ℝ δ) (plane : String)
    (resolution : Resolution ℝ) (method : Option String) : Py (SGrid ℝ δ) :=
  if lineA.points.length ≠ lineB.points.length then .error .valueError
  else
    match resolutionToPerc resolution method with
    | .error e => .error e
    | .ok perc => generateSurfaceCore area lineA lineB plane perc

/-- `_helpers.py:233-458` `generate_volume_from_two_surfaces`, structured branch. -/
noncomputable def generateVolumeS {δ : Type _} [OfNat δ 0] [OfNat δ 32] [Inhabited δ]
    (volume : Arr3 (V3 ℝ) → List ℝ) (a b : SGrid ℝ δ)
    (resolution : Resolution ℝ) (method : Option String) : Py (SGrid ℝ δ) :=
  if a.nodes.d ≠ b.nodes.d then .error .valueError
  else if dimOfShape a.nodes.d ≠ 2 then .error .valueError
  else
    match resolutionToPerc resolution method with
    | .error e => .error e
    | .ok perc => generateVolumeStructured volume a b perc

section
variable {K : Type _} [Field K] [LinearOrder K]

/-- numpy `isclose(a, b)`: `|a - b| <= atol + rtol * |b|` with the default tolerances. -/
def isClose (a b : K) : Bool := decide (|a - b| ≤ 1 / 10 ^ 8 + 1 / 10 ^ 5 * |b|)

/-- `np.allclose` on points. -/
def closeV3 (a b : V3 K) : Bool := (List.finRange 3).all fun ax => isClose (a ax) (b ax)

/-- `_misc.py:930-960`: the facing layers coincide. -/
def interfaceClose (axis : Fin 3) (a b : Arr3 (V3 K)) : Bool :=
  let face := Function.update a.d axis 1
  (List.range (sizeOfShape face)).all fun c =>
    closeV3 (a.get (Function.update (unflatF face c) axis (a.d axis - 1)))
      (b.get (Function.update (unflatF face c) axis 0))

/-- `_misc.py:966-978`: concatenation of one cell array.  A vector array cannot be reshaped to the
shape of the grid (`ValueError`). -/
def mergeArray {δ : Type _} [Inhabited δ] (axis : Fin 3) (da db : Ix) (va vb : DArr δ) :
    Py (DArr δ) :=
  if va.vector ∨ vb.vector then .error .valueError
  else
    match reshapeF (cellShape da) va.vals, reshapeF (cellShape db) vb.vals with
    | .ok x, .ok y =>
      match Arr3.concat axis x y with
      | .ok z => .ok ⟨false, z.ravelF⟩
      | .error e => .error e
    | _, _ => .error .valueError

/-- `_misc.py:962-980`: the arrays of `a` that `b` has too; `n` is the number of cells of the merged
grid. -/
def mergeArrays {δ : Type _} [Inhabited δ] (axis : Fin 3) (da db : Ix) (n : Nat)
    (cb : Dict String (DArr δ)) :
    Dict String (DArr δ) → Dict String (DArr δ) → Py (Dict String (DArr δ))
  | [], acc => .ok acc
  | (k, va) :: rest, acc =>
    match Dict.get? cb k with
    | none => mergeArrays axis da db n cb rest acc
    | some vb =>
      match mergeArray axis da db va vb with
      | .error e => .error e
      | .ok w =>
        match setArray n acc k w with
        | .error e => .error e
        | .ok acc => mergeArrays axis da db n cb rest acc

/-- `_misc.py:926-982`: one pass of the loop of `merge` over structured grids.  Shapes that differ
across the axis make either `allclose` or `concatenate` raise `ValueError`.  Point data are not
copied. -/
def merge2 {δ : Type _} [Inhabited δ] (axis : Fin 3) (a b : SGrid K δ) : Py (SGrid K δ) :=
  if ¬ ∀ ax, ax ≠ axis → a.nodes.d ax = b.nodes.d ax then .error .valueError
  else if interfaceClose axis a.nodes b.nodes = false then .error .valueError
  else
    match Arr3.concat axis a.nodes (b.nodes.tailAxis axis) with
    | .error e => .error e
    | .ok nodes =>
      match mergeArrays axis a.nodes.d b.nodes.d (sizeOfShape (cellShape nodes.d))
          b.cellData a.cellData [] with
      | .error e => .error e
      | .ok cd => .ok ⟨nodes, [], cd⟩

/-- `_misc.py:924-982`: the loop. -/
def mergeFold {δ : Type _} [Inhabited δ] (axis : Fin 3) :
    SGrid K δ → List (SGrid K δ) → Py (SGrid K δ)
  | a, [] => .ok a
  | a, b :: rest =>
    match merge2 axis a b with
    | .error e => .error e
    | .ok m => mergeFold axis m rest

/-- `_misc.py:891-988` `merge` on structured grids (`axis = none`: `None`).  An empty sequence makes
`dataset[0]` raise. -/
def mergeStructured {δ : Type _} [Inhabited δ] (axis : Option (Fin 3)) :
    List (SGrid K δ) → Py (SGrid K δ)
  | [] => .error .indexError
  | [a] => .ok a
  | a :: b :: rest =>
    match axis with
    | none => .error .valueError
    | some axis => mergeFold axis a (b :: rest)

end

end Gridder
