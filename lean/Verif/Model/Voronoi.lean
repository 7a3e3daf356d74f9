import Verif.Model.Lines
import Mathlib.Data.List.Sort
import Mathlib.Algebra.Field.Defs
import Mathlib.Algebra.Order.Group.Int

/-!
# Voronoi meshes

Models the parts of `pvgridder/core/voronoi.py` that decide which points are used (`generate_mesh` 366-415),
which data go with which cell (417-443, 491-499), the orientation of cells (476-482, 509-514), the closing of
infinite regions (`_generate_voronoi_tesselation` 532-579) and the constraint cells of `add_polyline` (305-320).
Qhull is not modelled: its output is an argument of `closeRegions`.  The whole of `generate_mesh` is in
`Model/VoronoiMesh.lean`.
-/

namespace Gridder

section priority
variable {P G : Type _}

/-- An item added to the Voronoi mesh.  `centers` are its cell centres, `inside` says which of them are in the
background mesh (`find_containing_cell(...) != -1`), `groups` are the entries of its group array.  `covers kept p`
says that `p` is in one of the cells `kept` of the item; it is false for items that are still polydata at
`voronoi.py:398`. -/
structure VItem (P G : Type _) where
  centers : List P
  inside : List Bool
  groups : List G
  covers : List Nat → P → Bool
  priority : Int

/-- An entry of `points`, `group_array`, `priority_array` and `active`; the priority -∞ of the background mesh is
`none`. -/
structure VPoint (P G : Type _) where
  point : P
  group : G
  priority : Option Nat
  active : Bool

/-- The cells of an item that are used (`voronoi.py:383-391`): those inside the background mesh, *if there are
any*. -/
def VItem.kept (it : VItem P G) : List Nat :=
  if it.inside.any id then (List.range it.centers.length).filter fun i => it.inside.getD i false
  else List.range it.centers.length

/-- `priority_array <= abs(priority)` (`<` for negative priorities), `voronoi.py:402-406`. -/
def VItem.outranks (it : VItem P G) (p : Option Nat) : Bool :=
  match p with
  | none => true
  | some p => if 0 ≤ it.priority then decide (p ≤ it.priority.natAbs) else decide (p < it.priority.natAbs)

/-- `active[mask] = False` for one point (`voronoi.py:398-409`).  Simplified: the group of a disabled point, which
is never read again, is left as it is. -/
def VItem.disable (it : VItem P G) (v : VPoint P G) : VPoint P G :=
  if it.covers it.kept v.point ∧ it.outranks v.priority then { v with active := false } else v

/-- The points of an item (`voronoi.py:394-395, 411-415`). -/
def VItem.newPoints (it : VItem P G) : List (VPoint P G) :=
  it.kept.filterMap fun i =>
    match it.centers[i]?, it.groups[i]? with
    | some p, some g => some ⟨p, g, some it.priority.natAbs, true⟩
    | _, _ => none

/-- Body of the loop over the items (`voronoi.py:381-415`). -/
def voronoiStep (pts : List (VPoint P G)) (it : VItem P G) : List (VPoint P G) :=
  pts.map it.disable ++ it.newPoints

/-- `sorted(self.items, key=lambda item: abs(item.priority))` (`voronoi.py:367`); the sort of Python is stable. -/
def sortItems (items : List (VItem P G)) : List (VItem P G) :=
  items.insertionSort fun a b => a.priority.natAbs ≤ b.priority.natAbs

/-- The points after the loop (`voronoi.py:366-415`), `background` being those of the background mesh. -/
def voronoiPoints (background : List (P × G)) (items : List (VItem P G)) : List (VPoint P G) :=
  (sortItems items).foldl voronoiStep (background.map fun b => ⟨b.1, b.2, none, true⟩)

/-- `group_array[active]` and the coordinates of the cells (`voronoi.py:418`, 433-443, 491-499).  `ids` is the array
`vtkOriginalCellIds` of `average_points` (`none` if `min_length` is 0): the regions that survived. -/
def voronoiData (pts : List (VPoint P G)) (ids : Option (List Nat)) : List G × List P :=
  let active := pts.map (·.active)
  let used := pts.filter (·.active)
  match ids with
  | none => (used.map (·.group), used.map (·.point))
  | some ids =>
    let gone := (List.range used.length).filter fun i => i ∉ ids
    let idx := (List.range pts.length).filter fun i => active.getD i false
    let active := (gone.filterMap (idx[·]?)).foldl (fun a i => a.set i false) active
    (((pts.zip active).filter (·.2)).map (·.1.group),
      (used.zipIdx.filter fun pi => pi.2 ∉ gone).map (·.1.point))

end priority

section orientation
variable {K : Type _} [Field K] [LinearOrder K]

/-- `_compute_signed_area` (`voronoi.py:509-514`): the closing edge is left out. -/
def openArea (points : List (K × K)) : K :=
  1 / 2 * (List.zipWith (fun p q => p.1 * q.2 - q.1 * p.2) points points.tail).sum

/-- "Ensure correct orientation" (`voronoi.py:476-482`); `ccw` is `orientation == "CCW"`. -/
def orientCell (ccw : Bool) (points : List (K × K)) : List (K × K) :=
  let area := openArea (points.take 3)
  if (ccw ∧ area < 0) ∨ (ccw = false ∧ 0 < area) then points.reverse else points

end orientation

section tessellation
variable {K : Type _} [Field K] [LinearOrder K]

/-- The attributes of `scipy.spatial.Voronoi` that are read (`voronoi.py:530-546`). -/
structure Qhull (K : Type _) where
  points : List (K × K)
  vertices : List (K × K)
  ridgePoints : List (Nat × Nat)
  ridgeVertices : List (Int × Int)
  pointRegion : List Nat
  regions : List (List Int)

/-- `ridges.get(p)` (`voronoi.py:533-537`): the other point and the two vertices of every ridge of point `p`. -/
def Qhull.ridges (q : Qhull K) (p : Nat) : List (Nat × Int × Int) :=
  (q.ridgePoints.zip q.ridgeVertices).flatMap fun r =>
    (if r.1.1 = p then [(r.1.2, r.2.1, r.2.2)] else []) ++ (if r.1.2 = p then [(r.1.1, r.2.1, r.2.2)] else [])

/-- `points.mean(axis=0)`. -/
def mean2 (points : List (K × K)) : K × K :=
  ((points.map (·.1)).sum / points.length, (points.map (·.2)).sum / points.length)

/-- `np.sign`. -/
def sgn (x : K) : K := if 0 < x then 1 else if x < 0 then -1 else 0

/-- Direction in which the ridge between `p` and `q` is prolonged (`voronoi.py:562-567`); `nrm` is the norm. -/
def ridgeDirection (nrm : K × K → K) (center p q : K × K) : K × K :=
  let l := nrm (q.1 - p.1, q.2 - p.2)
  let t := ((q.1 - p.1) / l, (q.2 - p.2) / l)
  let n := (-t.2, t.1)
  let mid := mean2 [p, q]
  let s := sgn ((mid.1 - center.1) * n.1 + (mid.2 - center.2) * n.2)
  (s * n.1, s * n.2)

/-- A list indexed as in Python, from the end for negative numbers. -/
def pyIndex (l : List (K × K)) (v : Int) : K × K :=
  (l[(if v < 0 then v + l.length else v).toNat]?).getD (0, 0)

/-- Body of the loop over the ridges of an infinite region (`voronoi.py:555-571`), on `new_vertices` and
`new_region`. -/
def closeRidge (nrm : K × K → K) (radius : K) (q : Qhull K) (p1 : Nat) (s : List (K × K) × List Nat)
    (r : Nat × Int × Int) : List (K × K) × List Nat :=
  let v := if r.2.2 < 0 then (r.2.2, r.2.1) else r.2
  if 0 ≤ v.1 then s
  else
    let d := ridgeDirection nrm (mean2 q.points) (pyIndex q.points p1) (pyIndex q.points r.1)
    let f := pyIndex q.vertices v.2
    (s.1 ++ [(f.1 + d.1 * radius, f.2 + d.2 * radius)], s.2 ++ [s.1.length])

/-- Body of the loop over the points (`voronoi.py:545-577`), on `new_vertices` and `new_regions`.  `angle` is the
angle of a vertex about the mean of the vertices of its region. -/
def closeRegion (nrm : K × K → K) (angle : K × K → K × K → K) (radius : K) (q : Qhull K)
    (s : List (K × K) × List (List Nat)) (p : Nat × Nat) : List (K × K) × List (List Nat) :=
  let region := q.regions.getD p.1 []
  if -1 ∉ region then (s.1, s.2 ++ [region.map Int.toNat])
  else
    let r := (q.ridges p.2).foldl (closeRidge nrm radius q p.2) (s.1, (region.filter (0 ≤ ·)).map Int.toNat)
    let c := mean2 (r.2.map fun (v : Nat) => pyIndex r.1 v)
    (r.1, s.2 ++ [r.2.insertionSort fun (a b : Nat) => angle c (pyIndex r.1 a) ≤ angle c (pyIndex r.1 b)])

/-- `_generate_voronoi_tesselation` after the call of Qhull (`voronoi.py:532-579`): vertices and regions.
Simplified: a point without ridge, for which the code raises `KeyError`, has the empty list of ridges. -/
def closeRegions (nrm : K × K → K) (angle : K × K → K × K → K) (radius : K) (q : Qhull K) :
    List (K × K) × List (List Nat) :=
  q.pointRegion.zipIdx.foldl (closeRegion nrm angle radius q) (q.vertices, [])

end tessellation

section constraint

/-- `constraint_` (`voronoi.py:305-309`) in the order of the cells, for a grid of `nx` by `ny` cells: everything
but `[start : nx - end, 1:-1]`.  A polyline of `m + 1` points, extended at both ends (274-284), has
`nx = m + start + end` cells, so that `nx - end` is not negative. -/
def constraintMask (nx ny start stop : Nat) : List Bool :=
  (List.range (nx * ny)).map fun c =>
    !(decide (start ≤ c % nx) && decide (c % nx < nx - stop) && decide (1 ≤ c / nx) && decide (c / nx < ny - 1))

/-- The cells of the two items added for a polyline (`voronoi.py:311-320`): along the line, and constraint cells. -/
def polylineItems (nx ny start stop : Nat) : List Nat × List Nat :=
  let mask := constraintMask nx ny start stop
  ((List.range (nx * ny)).filter fun c => !mask.getD c false, (List.range (nx * ny)).filter fun c => mask.getD c false)

end constraint

end Gridder
