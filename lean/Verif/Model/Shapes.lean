import Verif.Model.Structured
import Verif.Model.Picking
import Verif.Model.Stack
import Mathlib.Analysis.SpecialFunctions.Trigonometric.Basic
import Mathlib.Analysis.SpecialFunctions.Trigonometric.Inverse

/-!
# Geometric objects

Models `pvgridder/core/_helpers.py` 49-58 (`generate_arc`), 550-582 (`translate`) and
`pvgridder/core/geometric_objects.py`: AnnularSector, Annulus, Circle, CurvedLine, CylindricalShell,
CylindricalShellSector, Quadrilateral, Rectangle, RectangleSector, RegularLine, Sector,
SectorRectangle, SectorSquare, Square, SquareSector.  Floats are real numbers.

The areas and volumes computed by VTK are parameters (`area`, `volume`), as in Model/Structured.
-/

namespace Gridder

/-- `np.deg2rad`. -/
noncomputable def deg2rad (x : ℝ) : ℝ := x * (Real.pi / 180)

/-- `_helpers.py:49-58` `generate_arc`: the points of the polyline.  Simplified: `pv.MultipleLines`
needs two points, i.e. an explicit resolution must have at least two entries. -/
noncomputable def generateArc (radius thetaMin thetaMax : ℝ) (resolution : Resolution ℝ)
    (method : Option String) : Py (List (V3 ℝ)) :=
  match resolutionToPerc resolution method with
  | .error e => .error e
  | .ok perc => .ok (perc.map fun (t : ℝ) =>
      let angle := deg2rad (thetaMin + t * (thetaMax - thetaMin))
      ![radius * Real.cos angle, radius * Real.sin angle, radius * 0])

/-- `_helpers.py:61-108` `generate_line_from_two_points`, its points as vectors. -/
noncomputable def segmentLine (a b : List ℝ) (resolution : Resolution ℝ) (method : Option String) :
    Py (List (V3 ℝ)) :=
  match generateLine a b resolution method with
  | .error e => .error e
  | .ok pts => .ok (pts.map fun (p : List ℝ) => fun ax : Fin 3 => p.getD ax 0)

/-- The polyline mesh `pv.MultipleLines(points)` without data: one line through all the points in
order. -/
def lineMesh {K δ : Type _} (pts : List (V3 K)) : LineArg K δ :=
  .poly pts (List.range pts.length) [] []

/-- `_helpers.py:570-580`: the translation vector; `None` leaves the mesh where it is. -/
def translationVector {K : Type _} [Zero K] (vector : Option (List K)) : Py (V3 K) :=
  match vector with
  | none => .ok 0
  | some [x, y, z] => .ok ![x, y, z]
  | some [x, y] => .ok ![x, y, 0]
  | some _ => .error .valueError

/-- `mesh.translate(vector)` (pyvista): the points move, data are kept. -/
def moveGrid {K δ : Type _} [Add K] (v : V3 K) (M : SGrid K δ) : SGrid K δ :=
  ⟨⟨M.nodes.d, fun i => M.nodes.get i + v⟩, M.pointData, M.cellData⟩

/-- `_helpers.py:550-582` `translate` of a structured grid. -/
def translateGrid {K δ : Type _} [Zero K] [Add K] (M : SGrid K δ) (vector : Option (List K)) :
    Py (SGrid K δ) :=
  match translationVector vector with
  | .error e => .error e
  | .ok v => .ok (moveGrid v M)

/-- A grid made of triangles given by point numbers. -/
structure TriMesh (K : Type _) where
  points : List (V3 K)
  cells : List (List Nat)

section
variable {δ : Type _} [OfNat δ 0] [OfNat δ 32]

/-- `geometric_objects.py:78-91` `AnnularSector`. -/
noncomputable def annularSector (area : Arr3 (V3 ℝ) → List ℝ)
    (innerRadius outerRadius thetaMin thetaMax : ℝ) (rResolution thetaResolution : Resolution ℝ)
    (rMethod thetaMethod : Option String) (center : Option (List ℝ)) : Py (SGrid ℝ δ) :=
  if ¬ (0 ≤ innerRadius ∧ innerRadius < outerRadius) then .error .valueError
  else do
    let lineA ← generateArc innerRadius thetaMin thetaMax thetaResolution thetaMethod
    let lineB ← generateArc outerRadius thetaMin thetaMax thetaResolution thetaMethod
    let mesh ← generateSurface area (lineMesh lineA) (lineMesh lineB) "xy" rResolution rMethod
    translateGrid mesh center

/-- `geometric_objects.py:141-153` `Annulus`. -/
noncomputable def annulus (area : Arr3 (V3 ℝ) → List ℝ)
    (innerRadius outerRadius : ℝ) (rResolution thetaResolution : Resolution ℝ)
    (rMethod thetaMethod : Option String) (center : Option (List ℝ)) : Py (SGrid ℝ δ) :=
  annularSector area innerRadius outerRadius 0 360 rResolution thetaResolution rMethod thetaMethod
    center

/-- `geometric_objects.py:408-428` `CylindricalShellSector`.  `center[2] -= 0.5 * height` comes
first and raises `IndexError` for a centre with two components. -/
noncomputable def cylindricalShellSector [Inhabited δ]
    (area volume : Arr3 (V3 ℝ) → List ℝ)
    (innerRadius outerRadius thetaMin thetaMax height : ℝ)
    (rResolution thetaResolution zResolution : Resolution ℝ)
    (rMethod thetaMethod zMethod : Option String) (center : Option (List ℝ)) : Py (SGrid ℝ δ) :=
  let center := center.getD [0, 0, 0]
  if center.length < 3 then .error .indexError
  else do
    let center := center.modify 2 (· - 1 / 2 * height)
    let surfaceA ← annularSector area innerRadius outerRadius thetaMin thetaMax rResolution
      thetaResolution rMethod thetaMethod none
    let surfaceB := moveGrid ![0, 0, height] surfaceA
    let mesh ← generateVolumeS volume surfaceA surfaceB zResolution zMethod
    translateGrid mesh (some center)

/-- `geometric_objects.py:324-337` `CylindricalShell`. -/
noncomputable def cylindricalShell [Inhabited δ] (area volume : Arr3 (V3 ℝ) → List ℝ)
    (innerRadius outerRadius height : ℝ)
    (rResolution thetaResolution zResolution : Resolution ℝ)
    (rMethod thetaMethod zMethod : Option String) (center : Option (List ℝ)) : Py (SGrid ℝ δ) :=
  cylindricalShellSector area volume innerRadius outerRadius 0 360 height rResolution
    thetaResolution zResolution rMethod thetaMethod zMethod center

/-- `geometric_objects.py:697-715` `Quadrilateral`; `points` are the rows of the array.  `none` is the
default unit square. -/
noncomputable def quadrilateral (area : Arr3 (V3 ℝ) → List ℝ) (points : Option (List (List ℝ)))
    (xResolution yResolution : Resolution ℝ) (xMethod yMethod : Option String)
    (center : Option (List ℝ)) : Py (SGrid ℝ δ) :=
  match points.getD [[0, 0], [1, 0], [1, 1], [0, 1]] with
  | p0 :: p1 :: p2 :: p3 :: _ => do
    let lineA ← segmentLine p0 p1 xResolution xMethod
    let lineB ← segmentLine p3 p2 xResolution xMethod
    let mesh ← generateSurface area (lineMesh lineA) (lineMesh lineB) "xy" yResolution yMethod
    translateGrid mesh center
  | _ => .error .indexError

/-- `geometric_objects.py:764-772` `Rectangle`. -/
noncomputable def rectangle (area : Arr3 (V3 ℝ) → List ℝ) (dx dy : ℝ)
    (xResolution yResolution : Resolution ℝ) (xMethod yMethod : Option String)
    (center : Option (List ℝ)) : Py (SGrid ℝ δ) :=
  quadrilateral area (some [[0, 0], [dx, 0], [dx, dy], [0, dy]]) xResolution yResolution xMethod
    yMethod center

/-- `geometric_objects.py:1107-1117` `Square`. -/
noncomputable def square (area : Arr3 (V3 ℝ) → List ℝ) (dx : ℝ)
    (resolution : Resolution ℝ) (method : Option String) (center : Option (List ℝ)) :
    Py (SGrid ℝ δ) :=
  rectangle area dx dx resolution resolution method method center

/-- `geometric_objects.py:837-850` `RectangleSector`: the two structured halves (below and above the
diagonal) before they are appended into one unstructured grid.  Simplified: `+` of pyvista merges
coincident points; the halves are kept apart here. -/
noncomputable def rectangleSector (area : Arr3 (V3 ℝ) → List ℝ) (dx dy radius : ℝ)
    (xResolution yResolution rResolution : Resolution ℝ)
    (xMethod yMethod rMethod : Option String) (center : Option (List ℝ)) :
    Py (SGrid ℝ δ × SGrid ℝ δ) :=
  if 0 < radius ∧ radius < Real.sqrt (dx ^ 2 + dy ^ 2) then .error .valueError
  else do
    let lineX ← segmentLine [dx, dy] [0, dy] xResolution xMethod
    let lineY ← segmentLine [dx, dy] [dx, 0] yResolution yMethod
    let line45 ← generateArc radius 45 0 yResolution yMethod
    let line90 ← generateArc radius 45 90 xResolution xMethod
    let meshY45 ← generateSurface area (lineMesh lineY) (lineMesh line45) "xy" rResolution rMethod
    let meshX90 ← generateSurface area (lineMesh lineX) (lineMesh line90) "xy" rResolution rMethod
    let a ← translateGrid meshY45 center
    let b ← translateGrid meshX90 center
    .ok (a, b)

/-- `geometric_objects.py:1167-1180` `SquareSector`. -/
noncomputable def squareSector (area : Arr3 (V3 ℝ) → List ℝ) (dx radius : ℝ)
    (xResolution rResolution : Resolution ℝ) (xMethod rMethod : Option String)
    (center : Option (List ℝ)) : Py (SGrid ℝ δ × SGrid ℝ δ) :=
  rectangleSector area dx dx radius xResolution xResolution rResolution xMethod xMethod rMethod
    center

/-- `geometric_objects.py:994-1011` `SectorRectangle`: the two structured halves, as for
`rectangleSector`.  The arcs are generated without `theta_method`. -/
noncomputable def sectorRectangle (area : Arr3 (V3 ℝ) → List ℝ) (radius dx dy : ℝ)
    (rResolution thetaResolution : Resolution ℝ) (rMethod thetaMethod : Option String)
    (center : Option (List ℝ)) : Py (SGrid ℝ δ × SGrid ℝ δ) :=
  if ¬ (0 < radius ∧ radius < min dx dy) then .error .valueError
  else do
    let lineX ← segmentLine [dx, dy] [0, dy] thetaResolution thetaMethod
    let lineY ← segmentLine [dx, dy] [dx, 0] thetaResolution thetaMethod
    let line45 ← generateArc radius 45 0 thetaResolution none
    let line90 ← generateArc radius 45 90 thetaResolution none
    let meshY45 ← generateSurface area (lineMesh line45) (lineMesh lineY) "xy" rResolution rMethod
    let meshX90 ← generateSurface area (lineMesh line90) (lineMesh lineX) "xy" rResolution rMethod
    let a ← translateGrid meshY45 center
    let b ← translateGrid meshX90 center
    .ok (a, b)

/-- `geometric_objects.py:1061-1072` `SectorSquare`. -/
noncomputable def sectorSquare (area : Arr3 (V3 ℝ) → List ℝ) (radius dx : ℝ)
    (rResolution thetaResolution : Resolution ℝ) (rMethod thetaMethod : Option String)
    (center : Option (List ℝ)) : Py (SGrid ℝ δ × SGrid ℝ δ) :=
  sectorRectangle area radius dx dx rResolution thetaResolution rMethod thetaMethod center

end

/-- `geometric_objects.py:924-941` `Sector`. -/
noncomputable def sector (radius thetaMin thetaMax : ℝ) (resolution : Resolution ℝ)
    (method : Option String) (center : Option (List ℝ)) : Py (TriMesh ℝ) :=
  if radius ≤ 0 then .error .valueError
  else do
    let points ← generateArc radius thetaMin thetaMax resolution method
    let nCells := points.length - 1
    let cells := (List.range nCells).map fun (k : Nat) => [0, k + 1, k + 2]
    let v ← translationVector center
    .ok ⟨((0 : V3 ℝ) :: points).map (· + v), cells⟩

/-- `geometric_objects.py:188-193` `Circle`, before `clean` merges the two coincident ends of the
arc. -/
noncomputable def circle (radius : ℝ) (resolution : Resolution ℝ) (method : Option String)
    (center : Option (List ℝ)) : Py (TriMesh ℝ) :=
  sector radius 0 360 resolution method center

/-- `np.linalg.norm` of a vector. -/
noncomputable def norm3 (v : V3 ℝ) : ℝ := Real.sqrt (dot3 v v)

/-- One entry of `directions` (`geometric_objects.py:240-241`). -/
noncomputable def slerp (theta : ℝ) (start stop : V3 ℝ) (t : ℝ) : V3 ℝ := fun ax =>
  (Real.sin ((1 - t) * theta) * start ax + Real.sin (t * theta) * stop ax) / Real.sin theta

/-- `geometric_objects.py:234-245` `directions`. -/
noncomputable def curveDirections (start stop : V3 ℝ) (n : Nat) : List (V3 ℝ) :=
  let theta := Real.arccos (max (-1) (min 1 (dot3 start stop)))
  if theta = 0 then List.replicate (n + 1) start
  else (linspace 0 1 n).map (slerp theta start stop)

/-- `geometric_objects.py:248-254`: the loop; `last` is `points[-1]`, the result the points appended. -/
noncomputable def curveLoop (dl : ℝ) : V3 ℝ → List (V3 ℝ × V3 ℝ) → List (V3 ℝ)
  | _, [] => []
  | last, (d1, d2) :: rest =>
    let vec : V3 ℝ := fun ax => 1 / 2 * (d1 ax + d2 ax)
    let vec := unit3 norm3 vec
    let next : V3 ℝ := fun ax => last ax + dl * vec ax
    next :: curveLoop dl next rest

/-- `geometric_objects.py:225-259` `CurvedLine` for points and directions with three components.
Simplified: zero direction vectors give nan in numpy; `length` is a Python number, so a zero
resolution raises; negative resolutions are not modelled. -/
noncomputable def curvedLine (origin : V3 ℝ) (length : ℝ) (start : V3 ℝ) (stop : Option (V3 ℝ))
    (resolution : Nat) : Py (List (V3 ℝ)) :=
  let stop := stop.getD start
  let start := unit3 norm3 start
  let stop := unit3 norm3 stop
  if resolution = 0 then .error .zeroDivision
  else
    let directions := curveDirections start stop resolution
    .ok (origin :: curveLoop (length / resolution) origin (directions.dropLast.zip directions.tail))

section
variable {K : Type _} [Field K] [LinearOrder K]

/-- `np.diff(points, axis=0)` lengths. -/
def segmentLengths (nrm : V3 K → K) (points : List (V3 K)) : List K :=
  List.zipWith (fun (p q : V3 K) => nrm (q - p)) points points.tail

/-- `cumsum`, `acc` being the sum so far. -/
def cumsumFrom (acc : K) : List K → List K
  | [] => []
  | x :: rest => (acc + x) :: cumsumFrom (acc + x) rest

/-- `xp.max()` of a nonempty array. -/
def listMax (l : List K) : K := l.foldl max (l.headD 0)

/-- `geometric_objects.py:870-883` `RegularLine`; `nrm` is `sqrt` of the sum of squares.  An empty
array makes `np.interp` raise. -/
def regularLine (nrm : V3 K → K) (points : List (V3 K)) (resolution : Option Nat) :
    Py (List (V3 K)) :=
  match points with
  | [] => .error .valueError
  | _ :: _ =>
    let resolution := match resolution with
      | some 0 => points.length
      | some n => n
      | none => points.length
    let xp := cumsumFrom 0 (0 :: segmentLengths nrm points)
    let x := linspace 0 (listMax xp) resolution
    .ok (x.map fun (s : K) => fun ax : Fin 3 =>
      npInterp (xp.zip (points.map fun (p : V3 K) => p ax)) s)

end

end Gridder
