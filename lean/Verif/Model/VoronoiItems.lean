import Verif.Model.Shapes
import Verif.Model.Voronoi

/-!
# Items added to Voronoi meshes

Models `VoronoiMesh2D.add_circle` (`pvgridder/core/voronoi.py` 103-181) and the geometry of
`VoronoiMesh2D.add_polyline` (183-322) for one polyline.  Floats are real numbers.
-/

namespace Gridder

section circle
variable {δ : Type _} [OfNat δ 0] [OfNat δ 32]

/-- An item added by `add_circle`: a disc and/or a ring, merged into one mesh. -/
structure CircleItem (δ : Type _) where
  disc : Option (TriMesh ℝ)
  ring : Option (SGrid ℝ δ)
  priority : Int
  group : Option String

/-- `voronoi.py:97` `mesh.points[:, self.axis] = 0.0`. -/
def flatten (axis : Fin 3) (p : V3 ℝ) : V3 ℝ := Function.update p axis 0

/-- The nodes of the item after `add` (`voronoi.py:91-99`). -/
def CircleItem.nodes (axis : Fin 3) (it : CircleItem δ) : List (V3 ℝ) :=
  (((it.disc.map fun (d : TriMesh ℝ) => d.points).getD []) ++
    ((it.ring.map fun (r : SGrid ℝ δ) => r.nodes.ravelF).getD [])).map (flatten axis)

/-- What `add_circle` adds: items, and with `plain` the centre and the radius of the disc whose cells are fused. -/
structure CircleItems (δ : Type _) where
  items : List (CircleItem δ)
  fuse : Option (V3 ℝ × ℝ)

/-- `np.insert(center, axis, 0.0)` for two components. -/
def putBack (axis : Fin 3) (x y : ℝ) : V3 ℝ :=
  if axis = 0 then ![0, x, y] else if axis = 1 then ![x, 0, y] else ![x, y, 0]

/-- `voronoi.py:175-176`: the centre of the disc whose cells are fused. -/
def fuseCentre (axis : Fin 3) (center : Option (List ℝ)) : Py (V3 ℝ) :=
  match center with
  | none => .ok 0
  | some [x, y, z] => .ok ![x, y, z]
  | some [x, y] => .ok (putBack axis x y)
  | some _ => .error .valueError

/-- `voronoi.py:141-172`: the items of `add_circle`.  Simplified: the disc and the ring of the first item are kept
apart, `MeshMerge` only merges their common nodes. -/
noncomputable def circleItems (area : Arr3 (V3 ℝ) → List ℝ) (radius constraintRadius : ℝ) (resolution : Resolution ℝ)
    (center : Option (List ℝ)) (priority : Int) (group : Option String) : Py (List (CircleItem δ)) :=
  let dr := constraintRadius - radius
  if 0 < dr then do
    let disc ← circle (radius - dr) resolution none center
    let inner ← annulus area (radius - dr) radius (.int 1) resolution none none center
    let outer ← annulus area radius (radius + dr) (.int 1) resolution none none center
    .ok [⟨some disc, some inner, priority, group⟩, ⟨none, some outer, 0, none⟩]
  else if dr = 0 then do
    let disc ← circle radius resolution none center
    .ok [⟨some disc, none, priority, group⟩]
  else .error .valueError

/-- `voronoi.py:174-179`: the cells to fuse. -/
def circleFuse (axis : Fin 3) (radius : ℝ) (center : Option (List ℝ)) (plain : Bool) : Py (Option (V3 ℝ × ℝ)) :=
  if plain then do
    let c ← fuseCentre axis center
    .ok (some (c, radius))
  else .ok none

/-- `voronoi.py:141-181` `add_circle`. -/
noncomputable def addCircle (area : Arr3 (V3 ℝ) → List ℝ) (axis : Fin 3) (radius : ℝ)
    (constraintRadius : Option ℝ) (resolution : Resolution ℝ) (center : Option (List ℝ)) (plain : Bool)
    (priority : Int) (group : Option String) : Py (CircleItems δ) := do
  let items ← circleItems area radius (constraintRadius.getD (3 / 2 * radius)) resolution center priority group
  let fuse ← circleFuse axis radius center plain
  .ok ⟨items, fuse⟩

/-- The predicate `np.linalg.norm(x - center) < radius` (`voronoi.py:177-179`). -/
def fuses (f : V3 ℝ × ℝ) (x : V3 ℝ) : Prop := norm3 (x - f.1) < f.2

end circle

section polyline
variable {δ : Type _} [OfNat δ 0] [OfNat δ 32]

/-- `np.linalg.norm` of a plane vector. -/
noncomputable def norm2 (v : ℝ × ℝ) : ℝ := Real.sqrt (v.1 * v.1 + v.2 * v.2)

/-- `padding * v / norm(v)`. -/
noncomputable def scaleTo (padding : ℝ) (v : ℝ × ℝ) : ℝ × ℝ :=
  (padding * v.1 / norm2 v, padding * v.2 / norm2 v)

/-- `voronoi.py:253-268`: the stations along the polyline.  With preference "cell" they are the middles of the
segments, and the end points moved outwards by `padding`.  `points[1]` raises without two points. -/
noncomputable def stations (points : List (ℝ × ℝ)) (width : ℝ) (cell : Bool) (padding : Option ℝ) :
    Py (List (ℝ × ℝ)) :=
  match points with
  | [] => .error .indexError
  | [_] => .error .indexError
  | p0 :: p1 :: rest =>
    if cell then
      let padding := padding.getD (1 / 2 * width)
      let points := p0 :: p1 :: rest
      let q0 := points.getLast?.getD (0, 0)
      let q1 := points.dropLast.getLast?.getD (0, 0)
      let mids := List.zipWith (fun (p q : ℝ × ℝ) => (1 / 2 * (p.1 + q.1), 1 / 2 * (p.2 + q.2))) points points.tail
      .ok ((p0 + scaleTo padding (p0 - p1)) :: mids ++ [q0 + scaleTo padding (q0 - q1)])
    else .ok (p0 :: p1 :: rest)

/-- Station, forward and backward direction. -/
structure Station where
  pos : ℝ × ℝ
  fwd : ℝ × ℝ
  bwd : ℝ × ℝ

/-- Backward direction at station `p` (`voronoi.py:275-276`): the first one is that of the second station. -/
noncomputable def backAt (prev : Option (ℝ × ℝ)) (p q : ℝ × ℝ) : ℝ × ℝ :=
  match prev with
  | none => p - q
  | some o => o - p

/-- `voronoi.py:270-276`: the directions at the stations.  `prev` is the station before the first one of the list. -/
noncomputable def directionsFrom (prev : Option (ℝ × ℝ)) : List (ℝ × ℝ) → List Station
  | [] => []
  | [p] =>
    match prev with
    | none => []
    | some o => [⟨p, p - o, o - p⟩]
  | p :: q :: rest =>
    ⟨p, q - p, backAt prev p q⟩ :: directionsFrom (some p) (q :: rest)

/-- `voronoi.py:279-282`: one constraint station before the first one. -/
noncomputable def extendStart : Nat → List Station → List Station
  | 0, l => l
  | n + 1, l =>
    match l with
    | [] => []
    | s :: rest => extendStart n (⟨s.pos - s.fwd, s.fwd, s.bwd⟩ :: s :: rest)

/-- `voronoi.py:284-287`: one constraint station after the last one. -/
noncomputable def extendEnd : Nat → List Station → List Station
  | 0, l => l
  | n + 1, l =>
    match l.getLast? with
    | none => []
    | some s => extendEnd n (l ++ [⟨s.pos - s.bwd, s.fwd, s.bwd⟩])

/-- `voronoi.py:289-293`: the normal at a station. -/
noncomputable def Station.normal (s : Station) : ℝ × ℝ :=
  let n := (1 / 2 * (-s.fwd.2 + s.bwd.2), 1 / 2 * (s.fwd.1 + -s.bwd.1))
  (n.1 / norm2 n, n.2 / norm2 n)

/-- `voronoi.py:299-301`: the points of `line_a` and `line_b` at a station. -/
noncomputable def Station.sides (width : ℝ) (s : Station) : (ℝ × ℝ) × (ℝ × ℝ) :=
  let t := (1 / 2 * width * s.normal.1, 1 / 2 * width * s.normal.2)
  (s.pos - t, s.pos + t)

/-- `voronoi.py:245-246`: `perc` extended by one part at both ends. -/
def extendPerc (perc : List ℝ) : Py (List ℝ) :=
  match perc, perc.reverse with
  | a :: b :: _, y :: z :: _ => .ok ((2 * a - b) :: perc ++ [2 * y - z])
  | _, _ => .error .indexError

/-- `voronoi.py:302`. -/
def planeName (axis : Fin 3) : String := if axis = 0 then "yz" else if axis = 1 then "xz" else "xy"

/-- The stations of the band, constraint stations included. -/
noncomputable def bandStations (points : List (ℝ × ℝ)) (width : ℝ) (cell : Bool) (padding : Option ℝ)
    (start stop : Nat) : Py (List Station) := do
  let points ← stations points width cell padding
  .ok (extendEnd stop (extendStart start (directionsFrom none points)))

/-- `voronoi.py:183-322` `add_polyline` for one polyline, given by its points without the discarded axis: the band,
and the numbers of its cells in the two items. -/
noncomputable def addPolyline (area : Arr3 (V3 ℝ) → List ℝ) (axis : Fin 3) (points : List (ℝ × ℝ)) (width : ℝ)
    (cell : Bool) (padding : Option ℝ) (start stop : Nat) (resolution : Resolution ℝ) :
    Py (SGrid ℝ δ × List Nat × List Nat) := do
  let perc ← resolutionToPerc resolution none
  let perc ← extendPerc perc
  let band ← bandStations points width cell padding start stop
  let sides := band.map (Station.sides width)
  let lineA := sides.map fun (s : (ℝ × ℝ) × (ℝ × ℝ)) => putBack axis s.1.1 s.1.2
  let lineB := sides.map fun (s : (ℝ × ℝ) × (ℝ × ℝ)) => putBack axis s.2.1 s.2.2
  let mesh ← generateSurface area (.array lineA) (.array lineB) (planeName axis) (.array perc) none
  .ok (mesh, polylineItems (band.length - 1) (perc.length - 1) start stop)

end polyline

end Gridder
